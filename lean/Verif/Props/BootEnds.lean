import Verif.Lemmas.BootEnds
/-!
# C155: startup and updates of the application can end from every state, also if nothing arrives any more
-/
namespace Props.BootEnds
open Model Model.Boot Spec.Silence

/-- **C155**. Whatever happened before, call `i` of `startup()` or `nodeListUpdated()` ends when only time passes, timers fire, coroutines have their turns and listeners answer with `x`. -/
theorem C155_ends (ok : Bool) (x : Py Unit) (ops : List Op) (i : Nat) (hi : i < (run init ops).app.calls.length) :
    ∃ l, (∀ o ∈ l, bootTurn ok x o = true) ∧ ∃ r, (run init (ops ++ l)).app.calls[i]? = some (.done r) :=
  call_ends ok x i _ ops _ rfl (List.getElem?_eq_getElem hi)

/-- **C155**, all of them. Every call there is ends, and no further one is made. -/
theorem C155_all (ok : Bool) (x : Py Unit) (ops : List Op) :
    ∃ l, (∀ o ∈ l, bootTurn ok x o = true) ∧ (run init (ops ++ l)).app.calls.length = (run init ops).app.calls.length ∧ ∀ pc ∈ (run init (ops ++ l)).app.calls, ∃ r, pc = .done r := by
  have upto : ∀ n, n ≤ (run init ops).app.calls.length → ∃ l, (∀ o ∈ l, bootTurn ok x o = true) ∧ ∀ i < n, ∃ r, (run init (ops ++ l)).app.calls[i]? = some (.done r) := by
    intro n
    induction n with
    | zero => intro _; exact ⟨[], by simp, fun i hi => absurd hi (Nat.not_lt_zero i)⟩
    | succ n ih =>
      intro h
      obtain ⟨l, h1, h2⟩ := ih (by omega)
      have hl := turns_calls l (run init ops) h1
      rw [← run_append] at hl
      obtain ⟨l', h3, r, h4⟩ := C155_ends ok x (ops ++ l) n (by omega)
      refine ⟨l ++ l', fun o ho => ?_, fun i hi => ?_⟩
      · rcases List.mem_append.mp ho with ho | ho
        · exact h1 o ho
        · exact h3 o ho
      · rw [← List.append_assoc]
        rcases Nat.lt_succ_iff_lt_or_eq.mp hi with hi | rfl
        · obtain ⟨r, hr⟩ := h2 i hi
          exact ⟨r, by rw [run_append]; exact done_run l' i _ hr⟩
        · exact ⟨r, h4⟩
  obtain ⟨l, h1, h2⟩ := upto _ (Nat.le_refl _)
  have hl : (run init (ops ++ l)).app.calls.length = (run init ops).app.calls.length := by rw [run_append]; exact turns_calls l _ h1
  refine ⟨l, h1, hl, fun pc hp => ?_⟩
  obtain ⟨i, hi⟩ := List.getElem?_of_mem hp
  obtain ⟨r, hr⟩ := h2 i (by rw [← hl]; exact (List.getElem?_eq_some_iff.mp hi).1)
  rw [hi] at hr
  exact ⟨r, Option.some.inj hr⟩

/-! ## Example -/

/-- A gateway that does not even acknowledge the question for the node list: startup finds no nodes, asks for the failed ones, gets no answer again, and tells the listeners of no nodes. -/
example :
    let wait (k t : Nat) : List Op := (List.replicate 3 (Gateway.Op.conn .tick) ++ ([.conn (.timer k), .conn (.resume k), .conn (.cancelled k), .job k []] : List Gateway.Op) ++
      List.replicate 3 (Gateway.Op.conn .tick) ++ ([.conn (.waiter (.timer t)), .conn (.waiter (.resume t)), .conn (.waiter (.cancelDone t)), .job k []] : List Gateway.Op)).map .gw
    let l : List Op := wait 0 0 ++ [.resume 0 []] ++ wait 1 1 ++ [.resume 0 [], .asked 0 (.ok ())]
    (∀ o ∈ l, bootTurn true (.ok ()) o = true) ∧ (run init [.startup]).app.calls = [.list .startup] ∧ (run init ([.startup] ++ l)).app.calls = [.done (.ok ())] := by
  refine ⟨?_, ?_⟩ <;> decide +kernel

end Props.BootEnds
