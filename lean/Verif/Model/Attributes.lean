import Verif.Model.Py
/-!
# Attributes of node objects

The properties of `Node` (node.py:68-81, 110-158, 193-214, 281-288) and of `NodeEndPoint` (node.py:300-331), which passes some of them on to its parent and has no setter for these,
and what the application does with them (application.py:36-62, 173-174).

Simplifications: booleans are 0 and 1. Reading goes from an object to its parent; the number of steps is bounded by the number of objects (C138 shows that it is enough).
-/
namespace Model.Attributes

/-- The properties. -/
inductive Name
  | basic | flirs | generic | failed | listening | specific | endpoint
  deriving DecidableEq, Repr

/-- node.py:308-326: the properties redefined in `NodeEndPoint`, without setters. -/
def passedOn : Name → Bool
  | .basic | .flirs | .failed | .listening => true
  | _ => false

/-- A `Node`, or a `NodeEndPoint` if it has a parent. -/
structure Obj where
  root : Nat
  parent : Option Nat
  fields : Name → Int

/-- All objects, by number. -/
abbrev Heap := List Obj

/-- node.py:71-81: all attributes are 0 or False. -/
def Obj.fresh (root : Nat) (parent : Option Nat) : Obj := ⟨root, parent, fun _ => 0⟩

/-- Reading a property of the object `o`. -/
def getN (h : Heap) : Nat → Nat → Name → Py Int
  | 0, _, _ => .error .fuel
  | n + 1, o, a =>
    match h[o]? with
    | none => .error .attribute
    | some x =>
      match x.parent with
      | none => .ok (x.fields a)
      | some p => if passedOn a then getN h n p a else .ok (x.fields a)

/-- Reading a property of the object `o`. -/
def get (h : Heap) (o : Nat) (a : Name) : Py Int := getN h h.length o a

/-- A field of an object is written. -/
def Obj.put (x : Obj) (a : Name) (v : Int) : Obj := { x with fields := fun b => if b = a then v else x.fields b }

/-- Setting a property: a property without setter raises AttributeError. -/
def set (h : Heap) (o : Nat) (a : Name) (v : Int) : Heap × Py Unit :=
  match h[o]? with
  | none => (h, .error .attribute)
  | some x => if x.parent.isSome ∧ passedOn a then (h, .error .attribute) else (h.set o (x.put a v), .ok ())

/-- What a NodeInfoCachedReport says. -/
structure NodeInfo where
  basic : Int
  generic : Int
  specific : Int
  listening : Bool
  deriving DecidableEq, Repr

/-- What happens to node objects. -/
inductive Op
  | loadNode (root : Nat) (i : NodeInfo)                              -- application.py:52-62
  | loadEndPoint (parent ep : Nat) (generic specific : Int)           -- application.py:36-42
  | failedList (l : List Nat)                                         -- application.py:173-174
  | set (o : Nat) (a : Name) (v : Int)                                -- the user of the library sets a property
  deriving DecidableEq, Repr

/-- Setting several properties. -/
def setAll (h : Heap) (o : Nat) (l : List (Name × Int)) : Heap := l.foldl (fun h p => (set h o p.1 p.2).1) h

/-- One operation. -/
def step (h : Heap) : Op → Heap
  | .loadNode root i =>
    setAll (h ++ [Obj.fresh root none]) h.length [(.basic, i.basic), (.generic, i.generic), (.listening, if i.listening then 1 else 0), (.specific, i.specific)]
  | .loadEndPoint p ep generic specific =>
    match h[p]? with
    | none => h
    | some x => setAll (h ++ [Obj.fresh x.root (some p)]) h.length [(.endpoint, (ep : Int)), (.generic, generic), (.specific, specific)]
  | .failedList _ => h                                                -- only logged
  | .set o a v => (set h o a v).1

/-- A history. -/
def run (h : Heap) (ops : List Op) : Heap := ops.foldl step h

end Model.Attributes
