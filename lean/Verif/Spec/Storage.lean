import Verif.Model.Storage
/-!
# Specification: what saving and loading a node keeps
-/
namespace Spec.Storage
open Model Model.Storage

/-- The value has the type of the attribute. -/
def LeafOk : LeafTy → Leaf → Prop
  | .num, .num _ => True
  | .text, .text _ => True
  | .nodes, .nodes _ => True
  | .list, .list _ => True
  | _, _ => False

/-- Every attribute is one of `fields` and its value has the type given there. -/
def RecOk (fields : List (String × LeafTy)) (d : Dict String Leaf) : Prop :=
  (Dict.keys d).Nodup ∧ ∀ n v, (n, v) ∈ d → ∃ t, (n, t) ∈ fields ∧ LeafOk t v

def AttrOk : AttrTy → Attr → Prop
  | .leaf t, .leaf v => LeafOk t v
  | .nums, .nums d => (Dict.keys d).Nodup
  | .recs fields, .recs d => (Dict.keys d).Nodup ∧ ∀ k r, (k, r) ∈ d → RecOk fields r
  | _, _ => False

/-- Every attribute is one of `types` and its value has the type given there: setting attributes converts values to the declared type (util.py:89-108). -/
def Typed (types : List (String × AttrTy)) (d : Dict String Attr) : Prop :=
  (Dict.keys d).Nodup ∧ ∀ n v, (n, v) ∈ d → ∃ t, (n, t) ∈ types ∧ AttrOk t v

/-- The command classes of a node as they can be: distinct, with attributes of their types. -/
def NodeOk (node : Classes) : Prop := (Dict.keys node).Nodup ∧ ∀ id c, (id, c) ∈ node → Typed (attrsOf id) c.attrs

/-- Equal objects with simple attributes: every attribute has the same value. -/
def SameRec (a b : Dict String Leaf) : Prop := ∀ n, Dict.get? a n = Dict.get? b n

/-- Equal values of attributes, as Python compares them: the order of the entries of dicts does not matter. -/
def SameAttr : Attr → Attr → Prop
  | .leaf v, .leaf w => v = w
  | .nums d, .nums e => ∀ k, Dict.get? d k = Dict.get? e k
  | .recs d, .recs e => ∀ k, match Dict.get? d k, Dict.get? e k with
    | none, none => True
    | some a, some b => SameRec a b
    | _, _ => False
  | _, _ => False

/-- The same attributes with equal values. -/
def SameAttrs (a b : Dict String Attr) : Prop := ∀ n, match Dict.get? a n, Dict.get? b n with
  | none, none => True
  | some v, some w => SameAttr v w
  | _, _ => False

/-- A number as text. -/
def textual : Cell → Cell
  | .num n => .str (intStr n)
  | .str s => .str s

/-- What loading makes of a simple value: only the elements of lists change, they become texts. -/
def leafLoaded : Leaf → Leaf
  | .list l => .list (l.map fun c => c.map textual)
  | v => v

def recLoaded (d : Dict String Leaf) : Dict String Leaf := d.map fun p => (p.1, leafLoaded p.2)

def attrLoaded : Attr → Attr
  | .leaf v => .leaf (leafLoaded v)
  | .nums d => .nums d
  | .recs d => .recs (d.map fun p => (p.1, recLoaded p.2))

def attrsLoaded (d : Dict String Attr) : Dict String Attr := d.map fun p => (p.1, attrLoaded p.2)

/-- A node as it is created before its settings are loaded: no attribute is set. -/
def Fresh (node : Classes) : Prop := ∀ id c, (id, c) ∈ node → c.attrs = []

end Spec.Storage
