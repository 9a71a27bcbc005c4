import Verif.Model.Storage
/-!
# Settings of nodes over time

The command classes of the nodes, the storage lock and the files together: when a command class speaks `commandClassUpdated`, the node tells `nodeUpdated` and the storage
writes the file (`Model/Storage.lean`); when the application tells `nodeAdded`, the storage loads it. The storage listens to the application (application.py:30) and to every
node (application.py:40, 55).

Everything that changes what is saved of a command class is an operation, in any order (`Model/Interview.lean` says which orders are possible for interviews): `commandClassUpdated`
is only spoken in CommandClass.py:86, 169 and Configuration.py:131. Reading an attribute that is not set creates it with its default (util.py:69-78); where nothing else is done
with it this is left out.
-/
namespace Model.Persist
open Model.Storage Model.Classes

/-! ## A node -/

/-- A node object: its supported command classes and the status of the storage lock. -/
structure Nod where
  classes : Classes
  lock : Node.Storage

/-- node.py:68-108: a new node that supports these command classes. -/
def Nod.fresh (ids : List Nat) : Nod := ⟨ids.map fun c => (c, .fresh), .clean⟩

/-- What can happen to a node. -/
inductive Op
  | version (c v : Nat)                                   -- the command class got a version report
  | begin (c : Nat)                                       -- its interview begins
  | learn (c : Nat) (attrs : Dict String Attr)            -- its interview sets attributes
  | ended (c : Nat) (done : Bool)                         -- its interview has returned (`done`: something else than False)
  | failed (c : Nat)                                      -- its interview has raised TimeoutError or something else
  | config (m : Msg)                                      -- a configuration report is handled
  | groupInfo (g profile : Int)                           -- a group of a report of AssociationGrpInfo is handled
  | groupName (g : Int) (name : Str)                      -- a name report of AssociationGrpInfo is handled
  | groupCommands (g : Int) (l : List (List Cell))        -- a command list report of AssociationGrpInfo is handled
  | enter                                                 -- `with node.storageLock():` is entered
  | leave                                                 -- and left

/-- The dict of records that is the attribute `name`. -/
def recsOf (c : ClassState) (name : String) : Dict Int (Dict String Leaf) :=
  match Dict.get? c.attrs name with
  | some (.recs d) => d
  | _ => []

/-- The attribute is set. -/
def ClassState.put (c : ClassState) (name : String) (d : Dict Int (Dict String Leaf)) : ClassState := { c with attrs := Dict.set c.attrs name (.recs d) }

/-- Configuration.py:125-132: the class afterwards, and whether it speaks. -/
def configReport (c : ClassState) (m : Msg) : ClassState × Bool :=
  match needNum m "parameterNumber" with
  | .error _ => (c, false)
  | .ok n =>
    let d := recsOf c "parameters"
    let p := (Dict.get? d n).getD []
    match needNum m "value" with
    | .error _ => (ClassState.put c "parameters" (Dict.set d n p), false)
    | .ok v =>
      let p := Dict.set p "value" (.num v)
      match needNum m "size" with
      | .error _ => (ClassState.put c "parameters" (Dict.set d n p), false)
      | .ok z => (ClassState.put c "parameters" (Dict.set d n (Dict.set p "size" (.num z))), true)

/-- Changes of the class `c`; the result says whether it speaks `commandClassUpdated`. -/
def onClass (n : Classes) (c : Nat) (f : ClassState → ClassState × Bool) : Classes × Bool :=
  match Dict.get? n c with
  | none => (n, false)
  | some s => (Dict.set n c (f s).1, (f s).2)

/-- AssociationGrpInfo.py:173, 192: an attribute of a group that is known. -/
def groupAttr (c : ClassState) (g : Int) (name : String) (v : Leaf) : ClassState :=
  match Dict.get? (recsOf c "groupings") g with
  | none => c
  | some r => ClassState.put c "groupings" (Dict.set (recsOf c "groupings") g (Dict.set r name v))

/-- The command classes after an operation, and whether one of them speaks `commandClassUpdated`. -/
def change (n : Classes) : Op → Classes × Bool
  | .version c v => onClass n c fun s => ({ s with version := v }, true)                                      -- CommandClass.py:166-169
  | .begin c => onClass n c fun s => ({ s with interviewed := false }, false)                                 -- CommandClass.py:79
  | .learn c a => onClass n c fun s => ({ s with attrs := a }, false)
  | .ended c done => onClass n c fun s => ({ s with interviewed := if done then true else s.interviewed }, true)      -- CommandClass.py:84-86
  | .failed _ => (n, false)                                                                                   -- CommandClass.py:81-83
  | .config m => onClass n 0x70 fun s => configReport s m
  | .groupInfo g p => onClass n 0x59 fun s =>                                                                 -- AssociationGrpInfo.py:179
      (ClassState.put s "groupings" (Dict.set (recsOf s "groupings") g [("profile", .num p)]), false)
  | .groupName g name => onClass n 0x59 fun s => (groupAttr s g "name" (.text name), false)                   -- AssociationGrpInfo.py:188-193
  | .groupCommands g l => onClass n 0x59 fun s => (groupAttr s g "commands" (.list l), false)                 -- AssociationGrpInfo.py:171-174
  | .enter => (n, false)
  | .leave => (n, false)

/-- What an operation does to the storage lock, if anything. -/
def lockOp (spoken : Bool) : Op → Option Node.StorageOp
  | .enter => some .enter
  | .leave => some .leave
  | _ => if spoken then some .update else none

/-- The node after an operation, and whether it tells `nodeUpdated`. -/
def nodeStep (n : Nod) (o : Op) : Nod × Bool :=
  let a := change n.classes o
  match lockOp a.2 o with
  | none => (⟨a.1, n.lock⟩, false)
  | some l => (⟨a.1, (Node.storageStep n.lock l).1⟩, (Node.storageStep n.lock l).2)

/-- A node and the files, with the storage listening to the node. -/
def step {lib : Yaml} (nodeId : Str) (s : Nod × Files lib) (o : Op) : Nod × Files lib :=
  let a := nodeStep s.1 o
  (a.1, if a.2 then nodeUpdated lib s.2 nodeId a.1.classes else s.2)

/-- A history. -/
def run {lib : Yaml} (nodeId : Str) (s : Nod × Files lib) (ops : List Op) : Nod × Files lib := ops.foldl (step nodeId) s

/-! ## The application -/

/-- The application, the node objects it has created, by number, with their ids, the files, and the ids of the nodes that were saved. -/
structure Sys (lib : Yaml) where
  app : App.State
  objs : Dict Nat (Str × Nod)
  files : Files lib
  saves : List Str

/-- The application is started with these files. -/
def Sys.start (lib : Yaml) (own : Nat) (files : Files lib) : Sys lib := ⟨App.fresh own, [], files, []⟩

/-- The command classes a node supports. -/
def supported (i : App.Info) : List Nat :=
  match Node.classes i.classes with
  | .ok n => n.supported.keys
  | .error _ => []

/-- The nodes created by an operation of the application. -/
def created (a b : App.State) : List App.Nd := (b.nodes.map Prod.snd).filter fun nd => a.objs ≤ nd.obj

/-- The storage hears what the application tells (persistantstorage.py:32-43; it does not listen to anything else). An exception goes to the application. -/
def hear {lib : Yaml} (s : Sys lib) : App.Ev → Sys lib
  | .added _ nd =>
    match Dict.get? s.objs nd.obj with
    | none => s
    | some n => { s with objs := Dict.set s.objs nd.obj (n.1, { n.2 with classes := (nodeAdded lib s.files n.1 n.2.classes).1 }) }
  | _ => s

/-- What can happen. -/
inductive SysOp
  | app (o : App.Op)               -- anything that can happen to the application
  | node (obj : Nat) (o : Op)      -- anything that can happen to a node object

/-- One operation. -/
def Sys.step {lib : Yaml} (s : Sys lib) : SysOp → Sys lib
  | .app o =>
    let a := App.step s.app o
    (a.trace.drop s.app.trace.length).foldl hear
      { s with app := a, objs := (created s.app a).foldl (fun d nd => Dict.set d nd.obj (nd.id, Nod.fresh (supported nd.info))) s.objs }
  | .node obj o =>
    match Dict.get? s.objs obj with
    | none => s
    | some n =>
      let a := nodeStep n.2 o
      { s with objs := Dict.set s.objs obj (n.1, a.1), files := if a.2 then nodeUpdated lib s.files n.1 a.1.classes else s.files,
               saves := if a.2 then s.saves ++ [n.1] else s.saves }

/-- A schedule. -/
def Sys.run {lib : Yaml} (s : Sys lib) (ops : List SysOp) : Sys lib := ops.foldl Sys.step s

end Model.Persist
