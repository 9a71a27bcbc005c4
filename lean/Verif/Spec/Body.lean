import Verif.Model.Body
/-!
# What the result of an interview should mean
-/
namespace Model.Body
open Model.Listen (Ret)
open Model.Classes

/-- The class is marked as interviewed if its interview ends with this (CommandClass.py:84-85). -/
def Marks (r : Py Ret) : Prop := ∃ v, r = .ok v ∧ v ≠ .bool false

/-- The message answers the question. -/
def AnswerTo : Query → Msg → Prop
  | .group _ g, m => numAttr m "groupingIdentifier" = some g
  | _, _ => True

/-- Something was asked and answered, or sent and acknowledged. -/
def Settled : Item → Prop
  | .asked q r => ∃ m, r = some (.ok m) ∧ AnswerTo q m
  | .sent _ r => r = some (.ok true)

/-- If the class is marked as interviewed, then everything that was asked was answered and everything that was sent was acknowledged. -/
def Honest {σ : Type} (p : Prog σ) : Prop :=
  ∀ (s : σ) (xs : List (Reply σ)) (r : Py Ret), (exec p s xs).result = some r → Marks r → ∀ i ∈ (exec p s xs).items, Settled i

end Model.Body
