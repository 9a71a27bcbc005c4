import Verif.Spec.Bits
/-!
# Python basics

Exceptions are values.  `Py α` is the result of evaluating a Python expression:
either a value or the exception raised.
-/
namespace Model
open Spec (Bytes)

/-- The Python exceptions that can be raised by the modelled code.
`fuel` is not a Python exception: it marks that a model loop was not given
enough iterations; it is proved that it never occurs (C09). -/
inductive PyErr
  | eof | value | overflow | attribute | type | key | index | timeout
  | recursion | unicode | invalidState | cancelled | duplicateAck | notImplemented
  | runtime | fuel
  deriving DecidableEq, Repr

abbrev Py := Except PyErr

instance {α} [DecidableEq α] : DecidableEq (Py α) := fun a b =>
  match a, b with
  | .ok x, .ok y => if h : x = y then isTrue (by rw [h]) else isFalse (by intro h'; cases h'; exact h rfl)
  | .error x, .error y => if h : x = y then isTrue (by rw [h]) else isFalse (by intro h'; cases h'; exact h rfl)
  | .ok _, .error _ => isFalse (by intro h; cases h)
  | .error _, .ok _ => isFalse (by intro h; cases h)

/-- Python `l[i:j]` for arbitrary (also negative) indices. -/
def pySlice {α} (l : List α) (i j : Int) : List α :=
  let n : Int := l.length
  let norm : Int → Nat := fun k => (if k < 0 then max (k + n) 0 else min k n).toNat
  (l.take (norm j)).drop (norm i)

/-- A Python dict: insertion ordered association list with unique keys. -/
abbrev Dict (κ α : Type) := List (κ × α)

namespace Dict
variable {κ α : Type} [DecidableEq κ]

/-- `d.get(k)` -/
def get? (d : Dict κ α) (k : κ) : Option α :=
  match d with
  | [] => none
  | (k', v) :: r => if k' = k then some v else get? r k

/-- `d[k] = v` : replaces in place or appends (Python dicts keep insertion order). -/
def set (d : Dict κ α) (k : κ) (v : α) : Dict κ α :=
  match d with
  | [] => [(k, v)]
  | (k', v') :: r => if k' = k then (k', v) :: r else (k', v') :: set r k v

/-- `d.pop(k, None)` / `del d[k]` (the effect on the dict; keys are unique, so at most one entry goes). -/
def erase (d : Dict κ α) (k : κ) : Dict κ α := d.filter (fun p => p.1 ≠ k)

/-- `k in d` -/
def mem (d : Dict κ α) (k : κ) : Bool := (get? d k).isSome

/-- `list(d.keys())` -/
def keys (d : Dict κ α) : List κ := d.map Prod.fst

end Dict
end Model
