import Verif.Model.NodeInterview
/-!
# What an interview of a node should do
-/
namespace Model.NodeInterview
open Model.Listen

/-- The part of the trace that belongs to call `n`. -/
def mine (n : Nat) (t : List Ev) : List Ev := t.filter fun e => match e with
  | .began m _ _ => m = n
  | .ended m _ _ _ => m = n

/-- The classes from number `i` on are interviewed in order: the number of the call of the class, and its result. -/
def visits (n : Nat) : Nat → List (Nat × Py Ret) → List Ev
  | _, [] => []
  | i, (j, r) :: rs => .began n i j :: .ended n i j r :: visits n (i + 1) rs

/-- The interview of the class does not stop that of the node. -/
def Passes (r : Py Ret) : Prop := (∃ v, r = .ok v) ∨ r = .error .timeout

/-- Call `j` of class `i` is a call of interview(), and has the result if one is given. -/
def CallOf (cs : List Interview.State) (i j : Nat) (r : Option (Py Ret)) : Prop :=
  ∃ c x, cs[i]? = some c ∧ c.calls[j]? = some x ∧ x.only = false ∧ ∀ r', r = some r' → ∃ how, x.pc = .done how r'

/-- A class has said that it was updated. -/
def Updated (before after : List Interview.State) : Prop :=
  ∃ (i : Nat) (c c' : Interview.State), before[i]? = some c ∧ after[i]? = some c' ∧ c.told < c'.told

end Model.NodeInterview
