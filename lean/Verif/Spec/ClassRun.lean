import Verif.Model.ClassRun
import Verif.Spec.Body
/-!
# What a command class should hold
-/
namespace Model.ClassRun
open Model.Listen (Ret)
open Model.Body

/-- What call `i` has asked and sent and how that ended. -/
def itemsOf (tr : List Ev) (i : Nat) : List Item := (tr.filter fun e => e.call = i).map (·.item)

/-- Nothing that is loaded says that the class was interviewed. -/
def NoMark {σ : Type} (ops : List (Op σ)) : Prop := ∀ o ∈ ops, ∀ v f, o ≠ .load v true f

/-- Only interviews change the attributes. -/
def OnlyAsked {σ : Type} (ops : List (Op σ)) : Prop := ∀ o ∈ ops, (∀ v b f, o ≠ .load v b f) ∧ ∀ f, o ≠ .others f

/-- Call `i` of interview() ended in a way that marks the class. -/
def EndedWell {σ : Type} (s : State σ) (i : Nat) (v : Ret) : Prop := (∃ b, s.dec.calls[i]? = some ⟨b, .done .finished (.ok v)⟩) ∧ v ≠ .bool false

/-- The reports that came as answers. -/
def reports (tr : List Ev) : List Msg := tr.filterMap fun e => match e.item with | .asked _ (some (.ok m)) => some m | _ => none

/-- The report has a number for this attribute. -/
def Says (m : Msg) (n : String) (v : Int) : Prop := Classes.needNum m n = .ok v

/-- The scales that came as answers, with the sensor that was asked for. -/
def scales (tr : List Ev) : List (Nat × Msg) := tr.filterMap fun e => match e.item with | .asked (.scales t) (some (.ok m)) => some (t, m) | _ => none

end Model.ClassRun
