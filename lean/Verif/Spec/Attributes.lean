import Verif.Model.Attributes
/-!
# What the attributes of node objects should be

Stated with the list of everything that was written, in the order in which it was written. Used to state C138 and C139.
-/
namespace Spec.Attributes
open Model.Attributes (Name Op NodeInfo)

/-- The attributes that are those of the device, not of one end point. -/
def ofDevice : List Name := [.basic, .flirs, .failed, .listening]

/-- What is known of the past: the objects (an end point has a parent) with their nodes, and everything that was written. -/
structure Past where
  objects : List (Nat × Option Nat)
  writes : List (Nat × Name × Int)
  deriving DecidableEq, Repr

/-- The object is one end point of several. -/
def Past.endPoint (p : Past) (o : Nat) : Bool := (p.objects[o]?.bind Prod.snd).isSome

/-- Whose attribute an attribute of `o` is. -/
def Past.owner (p : Past) (o : Nat) (a : Name) : Nat := if a ∈ ofDevice then (p.objects[o]?.bind Prod.snd).getD o else o

/-- An object exists. -/
def Past.has (p : Past) (o : Nat) : Prop := o < p.objects.length

/-- The last value written to an attribute, 0 if there is none. -/
def lastWrite (ws : List (Nat × Name × Int)) (o : Nat) (a : Name) : Int :=
  match ws.reverse.find? fun w => w.1 == o && w.2.1 == a with
  | some w => w.2.2
  | none => 0

/-- What an attribute of `o` should be. -/
def Past.value (p : Past) (o : Nat) (a : Name) : Int := lastWrite p.writes (p.owner o a) a

/-- Something more happens. -/
def Past.after (p : Past) : Op → Past
  | .loadNode root i =>
    let n := p.objects.length
    ⟨p.objects ++ [(root, none)], p.writes ++ [(n, .basic, i.basic), (n, .generic, i.generic), (n, .listening, if i.listening then 1 else 0), (n, .specific, i.specific)]⟩
  | .loadEndPoint q ep generic specific =>
    match p.objects[q]? with
    | none => p
    | some x => ⟨p.objects ++ [(x.1, some q)], p.writes ++ [(p.objects.length, .endpoint, (ep : Int)), (p.objects.length, .generic, generic), (p.objects.length, .specific, specific)]⟩
  | .failedList _ => p
  | .set o a v => if o < p.objects.length ∧ ¬ (p.endPoint o ∧ a ∈ ofDevice) then { p with writes := p.writes ++ [(o, a, v)] } else p

/-- The past of a history. -/
def past (ops : List Op) : Past := ops.foldl Past.after ⟨[], []⟩

/-- End points are those of nodes (application.py:67), not of end points. -/
def Legal : Past → List Op → Prop
  | _, [] => True
  | p, o :: rest => (∀ q ep g s, o = .loadEndPoint q ep g s → p.endPoint q = false) ∧ Legal (p.after o) rest

/-- The user sets this attribute of no object. -/
def Untouched (a : Name) (ops : List Op) : Prop := ∀ o v, Op.set o a v ∉ ops

/-- The nodes in the last list of failing nodes. -/
def failing (ops : List Op) : List Nat :=
  match ops.reverse.findSome? fun o => match o with | .failedList l => some l | _ => none with
  | some l => l
  | none => []

end Spec.Attributes
