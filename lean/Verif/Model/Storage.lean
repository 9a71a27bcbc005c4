import Verif.Model.Application
import Verif.Model.Text
/-!
# Saving and loading nodes

`persistantstorage.py`, and `__getstate__` and `__setstate__` of the command classes and their attributes (`util.py`, `CommandClass.py` and the command classes).

YAML itself is a library: `Yaml` states what is assumed about it. `yaml.dump` writes a tree of dicts, lists, numbers, truth values and texts; `yaml.load` with the base
loader reads it back with every scalar as text. It sorts the keys of dicts, so the order of their entries is not assumed to be kept.

Simplifications: files that were not written by `nodeUpdated()` are not modelled in detail (where a text, list or dict of a file is not what a saved node has in that
place the model raises); the directory exists and can be written.
-/
namespace Model.Storage

/-! ## What is saved -/

/-- Keys of saved dicts. -/
inductive Key
  | num (n : Int)
  | str (s : Str)
  deriving DecidableEq, Repr

/-- What `__getstate__` gives and `yaml.dump` writes. -/
inductive Y
  | num (n : Int)
  | bool (b : Bool)
  | str (s : Str)
  | seq (l : List Y)
  | map (l : List (Key × Y))

/-- What `yaml.load` with the base loader gives. -/
inductive L
  | str (s : Str)
  | seq (l : List L)
  | map (l : List (Str × L))

/-- The text of a key. -/
def Key.text : Key → Str
  | .num n => intStr n
  | .str s => s

mutual
/-- A saved tree with all scalars as text: YAML writes numbers in decimal and truth values as `true` and `false`. -/
def strings : Y → L
  | .num n => .str (intStr n)
  | .bool b => .str (if b then "true".toList else "false".toList)
  | .str s => .str s
  | .seq l => .seq (stringsL l)
  | .map l => .map (stringsM l)

def stringsL : List Y → List L
  | [] => []
  | y :: l => strings y :: stringsL l

def stringsM : List (Key × Y) → Dict Str L
  | [] => []
  | (k, y) :: l => (k.text, strings y) :: stringsM l
end

/-- No dict has two entries with the same text as key. -/
inductive Distinct : L → Prop
  | str (s : Str) : Distinct (.str s)
  | seq (l : List L) : (∀ x ∈ l, Distinct x) → Distinct (.seq l)
  | map (m : Dict Str L) : (Dict.keys m).Nodup → (∀ k x, (k, x) ∈ m → Distinct x) → Distinct (.map m)

/-- The same up to the order of the entries of dicts. -/
inductive Same : L → L → Prop
  | str (s : Str) : Same (.str s) (.str s)
  | seq (l m : List L) : l.length = m.length → (∀ (i : Nat) (a b : L), l[i]? = some a → m[i]? = some b → Same a b) → Same (.seq l) (.seq m)
  | map (f g : Dict Str L) : (Dict.keys f).Nodup → (∀ k, k ∈ Dict.keys f ↔ k ∈ Dict.keys g) → (∀ (k : Str) (a b : L), f.get? k = some a → g.get? k = some b → Same a b) →
      Same (.map f) (.map g)

/-- What is assumed about the YAML library: a tree that is written and read back is the same with all scalars as text, and an empty file is read as None. -/
structure Yaml where
  Text : Type
  empty : Text
  dump : Y → Text
  load : Text → Py (Option L)
  load_dump : ∀ y, Distinct (strings y) → ∃ l, load (dump y) = .ok (some l) ∧ Same l (strings y)
  load_empty : load empty = .ok none

/-! ## Attributes -/

/-- Elements of the lists in the command list of an association group (AssociationGrpInfo.py:77-90); loading makes texts of the numbers. -/
inductive Cell
  | num (n : Int)
  | str (s : Str)
  deriving DecidableEq, Repr

/-- Simple attribute values. -/
inductive Leaf
  | num (n : Int)                              -- int, uint8_t, uint16_t
  | text (s : Str)                             -- str
  | nodes (l : List (Nat × Option Nat))        -- Association.py:23-91
  | list (l : List (List Cell))                -- list
  deriving DecidableEq, Repr

/-- Types of simple attributes. -/
inductive LeafTy
  | num
  | text
  | nodes
  | list
  deriving DecidableEq, Repr

/-- Attributes of command classes: simple, `VarDictAttribute(int, uint8_t)`, or a dict of numbers to objects with attributes (`VarDictAttribute(int, ConfigurationValue)`,
`Groupings` of Association.py and AssociationGrpInfo.py). -/
inductive Attr
  | leaf (v : Leaf)
  | nums (d : Dict Int Int)
  | recs (d : Dict Int (Dict String Leaf))
  deriving DecidableEq, Repr

/-- Types of attributes. -/
inductive AttrTy
  | leaf (t : LeafTy)
  | nums
  | recs (fields : List (String × LeafTy))
  deriving DecidableEq, Repr

/-- The `attributes` of the command classes: Version.py:20-26, ManufacturerSpecific.py:17-21, ZwavePlusInfo.py:17-23, Configuration.py:111-123, SensorMultilevel.py:158,
Association.py:96-133, AssociationGrpInfo.py:26-36, 169. All others have none (util.py:16). -/
def attrsOf (id : Nat) : List (String × AttrTy) :=
  if id = 0x86 then [("zwaveLibraryType", .leaf .num), ("zwaveProtocolVersion", .leaf .num), ("zwaveProtocolSubVersion", .leaf .num), ("applicationVersion", .leaf .num),
    ("applicationSubVersion", .leaf .num)]
  else if id = 0x72 then [("manufacturerID", .leaf .num), ("productTypeID", .leaf .num), ("productID", .leaf .num)]
  else if id = 0x5E then [("zwavePlusVersion", .leaf .num), ("roleType", .leaf .num), ("nodeType", .leaf .num), ("installerIconType", .leaf .num), ("userIconType", .leaf .num)]
  else if id = 0x70 then [("parameters", .recs [("value", .num), ("size", .num)])]
  else if id = 0x31 then [("supportedTypes", .nums)]
  else if id = 0x85 then [("groupings", .recs [("maxNodes", .num), ("nodes", .nodes)])]
  else if id = 0x59 then [("groupings", .recs [("name", .text), ("profile", .num), ("commands", .list)])]
  else []

/-- CommandClass.py:97-102 -/
structure ClassState where
  version : Int
  interviewed : Bool
  attrs : Dict String Attr
  deriving DecidableEq, Repr

/-- A new command class object. -/
def ClassState.fresh : ClassState := ⟨0, false, []⟩

/-! ## `__getstate__` -/

def cellState : Cell → Y
  | .num n => .num n
  | .str s => .str s

/-- types.py:93-94, 110-111 and Association.py:37-44; `str`, `int` and `list` have no `__getstate__` and are saved as they are (util.py:83-86). -/
def leafState : Leaf → Y
  | .num n => .num n
  | .text s => .str s
  | .nodes l => .seq ((nodesGetState l).map .str)
  | .list l => .seq (l.map fun c => .seq (c.map cellState))

/-- util.py:80-87 -/
def recState (d : Dict String Leaf) : Y := .map (d.map fun p => (.str p.1.toList, leafState p.2))

/-- CommandClass.py:44-45, Association.py:117-118, AssociationGrpInfo.py:41-42 -/
def attrState : Attr → Y
  | .leaf v => leafState v
  | .nums d => .map (d.map fun p => (.num p.1, .num p.2))
  | .recs d => .map (d.map fun p => (.num p.1, recState p.2))

/-- CommandClass.py:196-200 -/
def classState (c : ClassState) : Y :=
  .map (c.attrs.map (fun p => (.str p.1.toList, attrState p.2)) ++ [(.str "interviewed".toList, .bool c.interviewed), (.str "version".toList, .num c.version)])

/-! ## `__setstate__` -/

/-- `int(text)` -/
def loadNum : L → Py Int
  | .str s => pyInt s
  | _ => .error .type

/-- A list of texts. -/
def loadTexts : List L → Py (List Str)
  | [] => .ok []
  | .str s :: l => do let r ← loadTexts l; pure (s :: r)
  | _ :: _ => .error .type

/-- A list of lists of texts. -/
def loadCells : List L → Py (List (List Cell))
  | [] => .ok []
  | .seq c :: l => do let a ← loadTexts c; let r ← loadCells l; pure (a.map .str :: r)
  | _ :: _ => .error .type

/-- util.py:115-119 for one attribute: `attrType(state)`, or `Nodes.__setstate__` (Association.py:46-57). -/
def loadLeaf : LeafTy → L → Py Leaf
  | .num, l => do let n ← loadNum l; pure (.num n)
  | .text, .str s => .ok (.text s)
  | .nodes, .seq l => do let t ← loadTexts l; let n ← nodesSetState [] (t.map .str); pure (.nodes n)
  | .list, .seq l => do let c ← loadCells l; pure (.list c)
  | _, _ => .error .type

/-- util.py:111-120 for an object with simple attributes. -/
def loadFields (m : Dict Str L) : List (String × LeafTy) → Dict String Leaf → Py (Dict String Leaf)
  | [], d => .ok d
  | (n, t) :: fields, d =>
    match Dict.get? m n.toList with
    | none => loadFields m fields d
    | some l => do let v ← loadLeaf t l; loadFields m fields (d.set n v)

def loadRec (fields : List (String × LeafTy)) : L → Py (Dict String Leaf)
  | .map m => loadFields m fields []
  | _ => .error .type

/-- The loops `for key, value in state.items()` of CommandClass.py:57-59, Association.py:120-124, AssociationGrpInfo.py:44-48. Simplification: where a key and its value would both
raise, it is always the value that does; `VarDictAttribute` converts the key first. -/
def loadEntries {α : Type} (f : L → Py α) : Dict Str L → Dict Int α → Py (Dict Int α)
  | [], d => .ok d
  | (k, l) :: m, d => do
    let v ← f l
    let n ← pyInt k
    loadEntries f m (d.set n v)

/-- util.py:115-119 for one attribute of a command class. -/
def loadAttr : AttrTy → L → Py Attr
  | .leaf t, l => do let v ← loadLeaf t l; pure (.leaf v)
  | .nums, .map m => do let d ← loadEntries loadNum m []; pure (.nums d)
  | .recs fields, .map m => do let d ← loadEntries (loadRec fields) m []; pure (.recs d)
  | _, _ => .error .type

/-- util.py:111-120 for a command class: what has been set when an attribute raises stays set. -/
def loadAttrs (m : Dict Str L) : List (String × AttrTy) → Dict String Attr → Dict String Attr × Py Unit
  | [], d => (d, .ok ())
  | (n, t) :: attrs, d =>
    match Dict.get? m n.toList with
    | none => loadAttrs m attrs d
    | some l =>
      match loadAttr t l with
      | .error e => (d, .error e)
      | .ok v => loadAttrs m attrs (d.set n v)

/-- `bool(state)` -/
def truthy : L → Bool
  | .str s => s ≠ []
  | .seq l => l.length ≠ 0
  | .map m => m.length ≠ 0

/-- CommandClass.py:203 -/
def loadVersion (m : Dict Str L) : Py Int :=
  match Dict.get? m "version".toList with
  | none => .ok 0
  | some l => loadNum l

/-- CommandClass.py:204 -/
def loadInterviewed (m : Dict Str L) : Bool :=
  match Dict.get? m "interviewed".toList with
  | none => false
  | some l => truthy l

/-- CommandClass.py:202-205 -/
def setState (types : List (String × AttrTy)) (c : ClassState) : L → ClassState × Py Unit
  | .map m =>
    match loadVersion m with
    | .error e => (c, .error e)
    | .ok v =>
      let a := loadAttrs m types c.attrs
      (⟨v, loadInterviewed m, a.1⟩, a.2)
  | _ => (c, .error .attribute)

/-! ## Files -/

/-- The supported command classes of a node, by id. -/
abbrev Classes := Dict Nat ClassState

/-- persistantstorage.py:46-48 -/
def save (node : Classes) : Y := .map [(.str "supported".toList, .map (node.map fun p => (.num p.1, classState p.2)))]

/-- persistantstorage.py:40-43 -/
def restore (sup : Dict Str L) : Classes → Classes × Py Unit
  | [] => ([], .ok ())
  | (id, c) :: node =>
    match Dict.get? sup (natStr id) with
    | none => let r := restore sup node; ((id, c) :: r.1, r.2)
    | some l =>
      match setState (attrsOf id) c l with
      | (c', .error e) => ((id, c') :: node, .error e)
      | (c', .ok _) => let r := restore sup node; ((id, c') :: r.1, r.2)

/-- persistantstorage.py:61-63; the directory is left out. -/
def pathFor (nodeId : Str) : Str := nodeId ++ ".yml".toList

/-- The files and their content. -/
abbrev Files (lib : Yaml) := Dict Str lib.Text

/-- persistantstorage.py:45-50 -/
def nodeUpdated (lib : Yaml) (fs : Files lib) (nodeId : Str) (node : Classes) : Files lib := Dict.set fs (pathFor nodeId) (lib.dump (save node))

/-- persistantstorage.py:32-43 -/
def nodeAdded (lib : Yaml) (fs : Files lib) (nodeId : Str) (node : Classes) : Classes × Py Unit :=
  match Dict.get? fs (pathFor nodeId) with
  | none => (node, .ok ())
  | some t =>
    match lib.load t with
    | .error e => (node, .error e)
    | .ok (some (.map m)) =>
      match Dict.get? m "supported".toList with
      | none => (node, .ok ())
      | some (.map sup) => restore sup node
      | some _ => (node, .error .type)
    | .ok _ => (node, .error .attribute)               -- None, texts and lists have no `get`

/-- The files if the process stops somewhere in persistantstorage.py:49-50: before the file is opened; after `open(…, "w")`, which empties it; after some of the text has been
written (`written` is what is in the file at these points); and after all of it has been written. -/
def crashes (lib : Yaml) (fs : Files lib) (nodeId : Str) (node : Classes) (written : List lib.Text) : List (Files lib) :=
  fs :: Dict.set fs (pathFor nodeId) lib.empty :: written.map (fun t => Dict.set fs (pathFor nodeId) t) ++ [nodeUpdated lib fs nodeId node]

end Model.Storage
