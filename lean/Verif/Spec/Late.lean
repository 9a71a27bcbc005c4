import Verif.Model.Late
/-!
# The order in which things take effect

Specification vocabulary for C145.
-/
namespace Spec.Late

variable {ω : Type}

/-- What takes effect, in this order: a report when its task begins, everything else when it happens. `queue` are the reports that have arrived before. -/
def effects (report : ω → Bool) : List ω → List (Model.Late.Op ω) → List ω
  | _, [] => []
  | queue, .happens o :: ops => if report o then effects report (queue ++ [o]) ops else o :: effects report queue ops
  | queue, .starts i :: ops =>
    match queue[i]? with
    | none => effects report queue ops
    | some o => o :: effects report (queue.eraseIdx i) ops

/-- What has happened, in this order. -/
def events : List (Model.Late.Op ω) → List ω
  | [] => []
  | .happens o :: ops => o :: events ops
  | .starts _ :: ops => events ops

/-- asyncio begins tasks in the order in which they were made. -/
def InOrder (ops : List (Model.Late.Op ω)) : Prop := ∀ i, .starts i ∈ ops → i = 0

end Spec.Late
