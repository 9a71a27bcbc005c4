import Verif.Lemmas.Setup
import Verif.Props.GatewayCalls
/-!
# The addresses `connect()` finds

Property C117. The last part of `connect()` gets the list of nodes and looks up the address of every node that has none.
-/
namespace Props.Setup
open Spec Model Model.Gateway Props.Gateway Props.GatewayCalls

/-- Every node in the table has an address. -/
def AllAddressed (s : State) : Prop := ∀ n, n ∈ s.nodes.keys → ∃ a, s.nodes.get? n = some (some a)

/-- The full property: when `connect()` has returned, every node in the list of nodes has an address. -/
def C117_statement : Prop :=
  ∀ (ops ops' : List Op) (order : List Nat) (r : Ret), let s0 := run init ops
    let s := run (step s0 (.setup order)) ops'
    s.jobs[s0.jobs.length]? = some (.done (.ok r)) → AllAddressed s

/-- An acknowledgement of the second packet. -/
def ack2 : Bytes := [0x23, 0x02, 0x40, 0x10, 0x02, 0x00, 0x00]

/-- The gateway's answer to the question for the nodes: node 1. -/
def listed (b : UInt8) : Bytes := GatewayCalls.answer (0x52 :: 0x02 :: 1 :: 0 :: 1 :: mask b)

/-- **C117 is violated.** `getNodeList()` is called while `connect()` waits for the list. It replaces the table, without addresses, after `connect()` has filled it. -/
theorem C117_violated : ¬ C117_statement := by
  intro h
  have := h [.conn .connect] [.nm .getNodeList, .conn (.packet ack), .conn (.packet ack2), .conn (.resume 0), .conn (.resume 1), .job 0 [], .job 1 [],
    .conn (.packet (listed 1)), .conn (.waiter (.resume 0)), .conn (.waiter (.resume 1)), .job 0 [],
    .conn (.packet (advertisement 1 (addr 1))), .conn (.waiter (.resume 2)), .job 0 [], .job 1 []] [] .unit (by decide +kernel) 1 (by decide +kernel)
  revert this
  rw [show (Gateway.run (Gateway.step (Gateway.run Gateway.init [.conn .connect]) (.setup [])) [.nm .getNodeList, .conn (.packet ack), .conn (.packet ack2),
    .conn (.resume 0), .conn (.resume 1), .job 0 [], .job 1 [],
    .conn (.packet (listed 1)), .conn (.waiter (.resume 0)), .conn (.waiter (.resume 1)), .job 0 [],
    .conn (.packet (advertisement 1 (addr 1))), .conn (.waiter (.resume 2)), .job 0 [], .job 1 []]).nodes.get? 1 = some none by decide +kernel]
  simp

/-- **C117**, what holds, for every schedule: if nothing else changes the table during the call, then when it has returned
* the nodes are those of the table before, or, if there were none, those of a report that arrived during the call (or none, if no report arrived in time),
* a node that had an address before still has it,
* the address of every other node was advertised during the call,
* and every node has an address, if all advertisements that arrived during the call carry one. -/
theorem C117_addresses_partial (ops ops' : List Op) (order : List Nat) (r : Ret) :
    let s0 := run init ops
    let s := run (step s0 (.setup order)) ops'
    TableIdle s0 → (∀ op ∈ ops', touchesTable op = false) → s.jobs[s0.jobs.length]? = some (.done (.ok r)) →
    (s0.nodes ≠ [] → ∀ n, n ∈ s.nodes.keys ↔ n ∈ s0.nodes.keys) ∧
    (s0.nodes = [] → s.nodes = [] ∨ ∃ b m l, .conn (.packet b) ∈ ops' ∧ Delivers b m ∧ m.hid = 0x5202 ∧ reportNodes m = some l ∧ ∀ n, n ∈ s.nodes.keys ↔ n ∈ l) ∧
    (∀ n a, s0.nodes.get? n = some (some a) → s.nodes.get? n = some (some a)) ∧
    (∀ n a, s.nodes.get? n = some (some a) → s0.nodes.get? n = some (some a) ∨
      ∃ b m, .conn (.packet b) ∈ ops' ∧ Delivers b m ∧ m.hid = 0x5801 ∧ advertised m = some a) ∧
    ((∀ b m, .conn (.packet b) ∈ ops' → Delivers b m → m.hid = 0x5801 → advertised m ≠ none) → AllAddressed s) := by
  intro s0 s hidle hops hd
  obtain ⟨tag, hi⟩ := waiter_inv ops
  obtain ⟨tag', hi'⟩ := inv_step hi (.setup order)
  obtain ⟨⟨x, hx, hs⟩, -⟩ := (setupCall_start (fun m => ∃ b, .conn (.packet b) ∈ ops' ∧ Delivers b m) s0 hi order hidle).run ops' hi' hops (fun b m hb hd => ⟨b, hb, hd⟩)
  rw [show (Gateway.run (Gateway.step s0 (.setup order)) ops').jobs[s0.jobs.length]? = _ from hd] at hx
  cases hx
  cases hs with
  | ok h =>
    refine ⟨fun h0 => (h.known h0).1, fun h0 => ?_, fun n a hn => ?_, fun n a hn => ?_, fun hadv n hn => ?_⟩
    · rcases h.fresh h0 with h1 | ⟨m, l, ⟨b, hb, hd⟩, h2⟩
      · exact .inl h1
      · exact .inr ⟨b, m, l, hb, hd, h2⟩
    · refine (h.known ?_).2 n a hn
      intro h0
      rw [h0] at hn
      simp [Dict.get?] at hn
    · rcases h.source n a hn with h1 | ⟨m, ⟨b, hb, hd⟩, h2⟩
      · exact .inl h1
      · exact .inr ⟨b, m, hb, hd, h2⟩
    · rw [← Dict.get?_isSome_iff] at hn
      cases hg : s.nodes.get? n with
      | none => rw [hg] at hn; cases hn
      | some v =>
        cases v with
        | some a => exact ⟨a, rfl⟩
        | none =>
          rcases h.missing n hg with h1 | ⟨m, ⟨b, hb, hd⟩, h2, h3⟩
          · cases h1
          · exact absurd h3 (hadv b m hb hd h2)

theorem setupLoop_progress : ∀ (todo : List Nat) (s : State), (∀ n ∈ todo, n < 256 ∧ n ∈ s.nodes.keys) →
    (setupLoop s todo).2 = .done (.ok .unit) ∨ ∃ cur todo' t, (setupLoop s todo).2 = .setup cur todo' t ∧ todo'.length < todo.length := by
  intro todo
  induction todo with
  | nil => intro s _; exact .inl rfl
  | cons n todo ih =>
    intro s hn
    simp only [setupLoop]
    split
    · rename_i h
      have := (hn n (.head _)).2
      rw [← Dict.get?_isSome_iff, h] at this
      cases this
    · rcases ih s (fun m hm => hn m (.tail _ hm)) with h | ⟨cur, todo', t, h1, h2⟩
      · exact .inl h
      · exact .inr ⟨cur, todo', t, h1, by simp; omega⟩
    · simp only [ipOfNode, solicitation_bytes n (hn n (.head _)).1, lookup]
      exact .inr ⟨n, todo, _, rfl, by simp⟩

/-- **C117.** The call gets on: each time a lookup is answered fewer nodes are left, unless one of them has been removed from the table meanwhile. -/
theorem C117_progress_partial (s : State) (i cur : Nat) (todo : List Nat) (t : Nat) (m : Msg) (order : List Nat) (hj : s.jobs[i]? = some (.setup cur todo t))
    (ht : taskDone s t = some (.ok m)) (hn : ∀ n ∈ todo, n < 256 ∧ n ∈ s.nodes.keys) :
    (step s (.job i order)).jobs[i]? = some (.done (.ok .unit)) ∨
    ∃ cur' todo' t', (step s (.job i order)).jobs[i]? = some (.setup cur' todo' t') ∧ todo'.length < todo.length := by
  have hi : i < s.jobs.length := (List.getElem?_eq_some_iff.mp hj).1
  have hp := setupLoop_progress todo { s with nodes := s.nodes.set cur (advertised m) } (fun n h => ⟨(hn n h).1, (keys_set' _ _ _ n).mpr (.inr (hn n h).2)⟩)
  obtain ⟨c, j, hfr⟩ := setupLoop_frame todo { s with nodes := s.nodes.set cur (advertised m) }
  rw [hfr] at hp
  have hst : (step s (.job i order)).jobs[i]? = some j := by
    simp only [Gateway.step, stepJob, hj, ht, hfr, State.setJob]
    exact List.getElem?_set_self hi
  rw [hst]
  rcases hp with h | ⟨cur', todo', t', h1, h2⟩
  · exact .inl (congrArg some h)
  · exact .inr ⟨cur', todo', t', congrArg some h1, h2⟩

/-- **C117.** One node that does not answer makes `connect()` raise TimeoutError. -/
theorem C117_unanswered_partial (s : State) (i cur : Nat) (todo : List Nat) (t : Nat) (order : List Nat) (hj : s.jobs[i]? = some (.setup cur todo t))
    (ht : taskDone s t = some (.error .timeout)) : (step s (.job i order)).jobs[i]? = some (.done (.error .timeout)) := by
  have hi : i < s.jobs.length := (List.getElem?_eq_some_iff.mp hj).1
  simp only [Gateway.step, stepJob, hj, ht, State.setJob]
  exact List.getElem?_set_self hi

/-- The operations of a `connect()` to a gateway with the nodes 1 and 3. -/
def connected : List Op := [.conn (.packet ack), .conn (.resume 0), .job 0 [], .conn (.packet (listed 5)), .conn (.waiter (.resume 0)), .job 0 []] ++
  answered 1 0 1 (addr 1) ++ answered 2 0 3 (addr 3)

example : let s := run (step (run init [.conn .connect]) (.setup [])) connected
    s.jobs = [.done (.ok .unit)] ∧ s.nodes = [(1, some (addr 1)), (3, some (addr 3))] ∧ (∀ op ∈ connected, touchesTable op = false) := by
  decide +kernel

/-- Node 3 does not answer. -/
example : (run (step (run init [.conn .connect]) (.setup [])) ([.conn (.packet ack), .conn (.resume 0), .job 0 [], .conn (.packet (listed 5)), .conn (.waiter (.resume 0)), .job 0 []] ++
    answered 1 0 1 (addr 1) ++ [.conn .tick, .conn .tick, .conn .tick, .conn (.waiter (.timer 2)), .conn (.waiter (.resume 2)), .conn (.waiter (.cancelDone 2)), .job 0 []])).jobs =
    [.done (.error .timeout)] := by
  decide +kernel

end Props.Setup
