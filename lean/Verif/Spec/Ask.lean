import Verif.Model.Ask
/-!
# What asking listeners should give
-/
namespace Model.Ask
open Model.Listen

/-- The listeners in the order in which they were registered. -/
def registered (ops : List Op) : List Nat := ops.filterMap fun o => match o with
  | .add l => some l
  | _ => none

/-- The listeners that call `n` came to, in the order in which it did. -/
def toldBy (n : Nat) (t : List Ev) : List Nat := t.filterMap fun e => match e with
  | .told m _ l _ => if m = n then some l else none
  | .ended _ _ _ => none

/-- The listeners from which call `n` has an answer or waits for one, in the order in which it came to them. The answer is given if the listener is a function; a
function that raises gives no answer and neither does a listener without the method. -/
def asked (n : Nat) (t : List Ev) : List (Nat × Option Ret) := t.filterMap fun e => match e with
  | .told m i _ (.sync (.ok v)) => if m = n then some (i, some v) else none
  | .told m i _ .async => if m = n then some (i, none) else none
  | _ => none

/-- The coroutine of the listener number `i` has ended for call `n`. -/
def Ended (n i : Nat) (t : List Ev) : Prop := ∃ r, Ev.ended n i r ∈ t

/-- `v` is the answer of a listener. -/
def Answered (n : Nat) (t : List Ev) (p : Nat × Option Ret) (v : Ret) : Prop := p.2 = some v ∨ (p.2 = none ∧ Ev.ended n p.1 (.ok v) ∈ t)

/-- `e` is the exception with which the first of the coroutines for call `n` that failed has ended. -/
def FirstError (n : Nat) (t : List Ev) (e : PyErr) : Prop :=
  ∃ t1 t2 i, t = t1 ++ Ev.ended n i (.error e) :: t2 ∧ ∀ i' e', Ev.ended n i' (.error e') ∉ t1

end Model.Ask
