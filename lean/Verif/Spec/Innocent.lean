import Verif.Spec.ClassRun
/-!
# What an interview may raise
-/
namespace Model.ClassRun
open Model.Listen (Ret)
open Model.Body
open Model.Classes (needNum numAttr)

/-- The report has what its interview reads of it. -/
def Whole : Query → Msg → Prop
  | .version, m => ∀ n ∈ Classes.Copy.versionNames, ∃ x, needNum m n = .ok x
  | .manufacturer, m => ∀ n ∈ Classes.Copy.manufacturerNames, ∃ x, needNum m n = .ok x
  | .plusInfo, m => ∀ n ∈ Classes.Copy.plusNames, ∃ x, needNum m n = .ok x
  | .sensors, m => ∃ l, getAttr registry m "bitMask" = some (.sensors l)
  | .scales _, m => ∃ x, needNum m "scaleBitMask" = .ok x
  | .groupings, m => ∃ x, needNum m "supportedGroupings" = .ok x
  | .group _ _, m => (∃ x, needNum m "maxNodesSupported" = .ok x) ∧ ∃ l, getAttr registry m "nodes" = some (.nodes l)

/-- What a complete report is on the wire: the class, the command and at least as many bytes as the report has in the standard. -/
def Complete (q : Query) (b : List UInt8) : Prop :=
  let min := fun (cc cmd : UInt8) (n : Nat) => ∃ p : List UInt8, b = cc :: cmd :: p ∧ n ≤ p.length
  match q with
  | .version => min 0x86 0x12 5
  | .manufacturer => min 0x72 0x05 6
  | .plusInfo => min 0x5E 0x02 7
  | .sensors => min 0x31 0x02 1
  | .scales _ => min 0x31 0x06 2
  | .groupings => min 0x85 0x06 1
  | .group multi _ => min (if multi then 0x8E else 0x85) 0x03 3

/-- The answer is whole, if there is one. -/
def WholeItem : Item → Prop
  | .asked q (some (.ok m)) => Whole q m
  | _ => True

/-- A request or a send ended with this exception. -/
def Blames (e : PyErr) : Item → Prop
  | .asked _ (some (.error e')) => e' = e
  | .sent _ (some (.error e')) => e' = e
  | _ => False

/-- With whole reports the program raises nothing but what its requests and sends raise, as long as others do no more than `Q` to the attributes. -/
def Innocent {σ : Type} (Q : (σ → σ) → Prop) (p : Prog σ) : Prop :=
  ∀ (s : σ) (xs : List (Reply σ)) (e : PyErr), (∀ x ∈ xs, Q x.others) → (exec p s xs).result = some (.error e) → (∀ i ∈ (exec p s xs).items, WholeItem i) →
    ∃ i ∈ (exec p s xs).items, Blames e i

/-- Call `i` of interview() raised this, after it had asked something. -/
def Raised {σ : Type} (s : State σ) (i : Nat) (e : PyErr) : Prop := (∃ b, s.dec.calls[i]? = some ⟨b, .done .raised (.error e)⟩) ∧ itemsOf s.trace i ≠ []

/-- In all schedules of interviews with whole reports, interviews raise nothing but what their requests and sends raise. -/
def NeverRaises {σ : Type} (c : Cls σ) : Prop :=
  ∀ (id : Nat) (a : σ) (ops : List (Op σ)) (i : Nat) (e : PyErr), OnlyAsked ops → (∀ x ∈ (run c (fresh id a) ops).trace, WholeItem x.item) →
    Raised (run c (fresh id a) ops) i e → ∃ x ∈ itemsOf (run c (fresh id a) ops).trace i, Blames e x

/-- Every answer to the question for the number of groups gives `n`. -/
def Groupings (n : Int) (tr : List Ev) : Prop := ∀ x ∈ tr, ∀ m, x.item = .asked .groupings (some (.ok m)) → needNum m "supportedGroupings" = .ok n

end Model.ClassRun
