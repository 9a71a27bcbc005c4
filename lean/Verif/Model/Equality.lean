import Verif.Model.Registry
/-!
# Comparing messages
-/
namespace Model

/-- `a == b` for messages (message.py:49-52); comparing with something that is not a message gives False (lines 50-51). -/
def msgEq (a b : Msg) : Py Bool := do
  let x ← compose a
  let y ← compose b
  pure (x = y)

end Model
