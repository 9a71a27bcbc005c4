import Verif.Lemmas.GatewayEnds
/-!
# C154: calls of the gateway can end from every state, also if nothing arrives any more

All coroutines the gateway runs: network management calls, `setGatewayMode`, the node list part of `setupUnsolicitedConnection`, `connectToNode` and the handling of node list reports.
-/
namespace Props.GatewayEnds
open Model Model.Gateway Spec.Silence

/-- **C154**. Whatever happened before, coroutine `i` of the gateway ends when only time passes, timers fire and coroutines have their turns. -/
theorem C154_ends (ok : Bool) (ops : List Op) (i : Nat) (hi : i < (run init ops).jobs.length) :
    ∃ l, (∀ o ∈ l, gatewayTurn ok o = true) ∧ ∃ r, (run init (ops ++ l)).jobs[i]? = some (.done r) := job_ends ok ops hi

/-- **C154**, all of them. Every coroutine there is ends, and no further one begins. -/
theorem C154_all (ok : Bool) (ops : List Op) :
    ∃ l, (∀ o ∈ l, gatewayTurn ok o = true) ∧ (run init (ops ++ l)).jobs.length = (run init ops).jobs.length ∧
      ∀ j ∈ (run init (ops ++ l)).jobs, ∃ r, j = .done r := by
  obtain ⟨l, h1, h2⟩ := all_end ok ops _ (Nat.le_refl _)
  have hl : (run init (ops ++ l)).jobs.length = (run init ops).jobs.length := by rw [run_append]; exact turns_jobs l _ h1
  refine ⟨l, h1, hl, fun j hj => ?_⟩
  obtain ⟨i, hi⟩ := List.getElem?_of_mem hj
  obtain ⟨r, hr⟩ := h2 i (by rw [← hl]; exact (List.getElem?_eq_some_iff.mp hi).1)
  rw [hi] at hr
  exact ⟨r, Option.some.inj hr⟩

/-! ## Examples -/

/-- The look-up of `connectToNode`, and a call of `setGatewayMode` that was not acknowledged yet: none of them has ended, and both of them end. -/
example : ∃ ops : List Op, (run init ops).jobs.length = 2 ∧ (∀ j ∈ (run init ops).jobs, ∀ r, j ≠ .done r) ∧
    (run init (ops ++ (List.replicate 3 (.conn .tick) ++ ([.conn (.timer 0), .conn (.resume 0), .conn (.cancelled 0), .job 1 [],
      .conn (.waiter (.timer 0)), .conn (.waiter (.resume 0)), .conn (.waiter (.cancelDone 0)), .job 0 []] : List Op) ++
      List.replicate 3 (.conn .tick) ++ ([.conn (.waiter (.timer 1)), .conn (.waiter (.resume 1)), .conn (.waiter (.cancelDone 1)), .job 1 []] : List Op)))).jobs =
      [.done (.error .timeout), .done (.ok (.bool false))] := by
  refine ⟨[.connectToNode 5, .setMode 1], ?_, ?_, ?_⟩
  · decide +kernel
  · intro j hj r
    have : (run init [.connectToNode 5, .setMode 1]).jobs = [.connect 5 0, .ask (.mode 1) 1 0] := by decide +kernel
    rw [this] at hj
    rcases List.mem_cons.mp hj with rfl | hj
    · simp
    · rcases List.mem_cons.mp hj with rfl | hj
      · simp
      · cases hj
  · decide +kernel

end Props.GatewayEnds
