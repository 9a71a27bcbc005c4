import Verif.Model.NodeInterview
/-!
# A node that answers while it is interviewed
-/
namespace Model.NodeInterview
open Model.Listen

/-- What happens to a class of this number is what a node that answers makes happen: a question for the version is answered with `v`, the interview of the subclass does not
fail, and nothing is loaded. -/
def Truth (v : Nat) : Interview.Op → Prop
  | .versionAnswer _ r => r = .ok v
  | .bodyEnds _ r => ∃ x, r = .ok x ∧ x ≠ .bool false
  | .load _ _ => False
  | _ => True

/-- The same for a node with these classes; `truth id` is the version of the class `id` that the node has. -/
def Answers (ids : List Nat) (truth : Nat → Nat) : Op → Prop
  | .cls i o => ∀ id, ids[i]? = some id → Truth (truth id) o
  | _ => True

/-- The class is known: it has its version, and it is marked as interviewed unless it is being interviewed (again) right now. -/
def Known (c : Interview.State) (v : Nat) : Prop := c.version = v ∧ ((∀ x ∈ c.calls, x.pc ≠ .body) → c.interviewed = true)

end Model.NodeInterview
