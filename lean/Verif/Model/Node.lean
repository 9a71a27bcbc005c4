import Verif.Model.Waiter
import Verif.Model.Listen
import Verif.Model.Zip
/-!
# Nodes

`Node` (node.py) and `CommandClass.handleMessage` (CommandClass.py:104-125).
-/
namespace Model.Node
open Model.Listen

/-! ## Node information frames -/

/-- `_supported` and `_controlled`: command class id to the `securityS0` argument its object was created with. -/
structure Nif where
  supported : Dict Nat Bool
  controlled : Dict Nat Bool
  deriving DecidableEq, Repr

/-- node.py:99-104 -/
def Nif.load (n : Nif) (supported securityS0 : Bool) (c : Nat) : Nif :=
  if supported then { n with supported := n.supported.set c securityS0 } else { n with controlled := n.controlled.set c securityS0 }

/-- node.py:83-108. The local variables `supported` and `securityS0`, the rest of `cmdClasses`, and the classes loaded so far. -/
def scan (supported securityS0 : Bool) : List Nat → Nif → Py Nif
  | [], n => .ok n
  | [c], n =>
    if c = 0xF1 then .error .index                         -- cmdClasses[i + 1]
    else if c = 0xEF then .ok n
    else .ok (n.load supported securityS0 c)
  | c :: d :: r, n =>
    if c = 0xF1 ∧ d = 0x00 then scan true true r n
    else if c = 0xEF then scan false securityS0 (d :: r) n
    else scan supported securityS0 (d :: r) (n.load supported securityS0 c)

/-- node.py:68-108: the classes of `Node(nodeId, adapter, cmdClasses)`. -/
def classes (cmdClasses : List Nat) : Py Nif := scan true false cmdClasses ⟨[], []⟩

/-! ## Handling messages -/

/-- What was called while a message was handled, and the outcome. -/
inductive Ev
  | offered (r : Py Bool)                                             -- MessageWaiter.messageReceived
  | handler (cls : Nat) (r : Py Ret)                                  -- a method with @ZWaveMessageHandler
  | classListener (cls : Nat) (name : String) (i : Nat) (r : Py Ret)  -- a listener of the command class
  | listener (i : Nat) (r : Py Ret)                                   -- the onMessage method of a listener of the node
  | sent (m : Msg) (r : Py Bool)                                      -- Node.send
  deriving DecidableEq

/-- A node, its command classes and its surroundings. -/
structure Env (σ : Type) where
  supported : Nat → Bool                                             -- `cmdClass in node.supported`
  handler : Nat → Nat → Option (Msg → σ → σ × Py Ret)                -- `__messageHandlers__` of the class, by hid
  classListeners : Nat → String → Msg → List (Callback σ)            -- listeners of the class, by method
  listeners : Msg → List (Callback σ)                                -- listeners of the node (onMessage)
  send : Msg → σ → σ × Py Bool                                       -- Node.send (node.py:237-241)

/-- The waiting calls of the node, everything else, and what has been called. -/
structure World (σ : Type) where
  waiter : Waiter.State
  user : σ
  trace : List Ev

variable {σ : Type}

/-- The components of a name, separated by `_`, with only their first letter in upper case (CommandClass.py:118-119; NAMEs consist of letters and `_`). -/
def camel : Bool → List Char → List Char
  | _, [] => []
  | start, c :: r => if c = '_' then camel true r else (if start then c.toUpper else c.toLower) :: camel false r

/-- CommandClass.py:118-119 -/
def methodName (name : String) : String := "on" ++ String.ofList (camel true name.toList)

/-- `message.NAME` (message.py:12, 102-110). -/
def nameOf (m : Msg) : Option String :=
  match m with
  | .known h _ | .wrap h _ _ => (registry.find? (fun d => d.hid = h)).map (·.msgName)
  | _ => none

/-- The listeners of a command class are asked (CommandClass.py:118-125). -/
def askClass (e : Env σ) (w : World σ) (cls : Nat) (name : String) (m : Msg) : World σ × Py Bool :=
  let meth := methodName name
  let a := ask (e.classListeners cls meth m) w.user
  ({ w with user := a.1, trace := w.trace ++ a.2.1.map (fun x => .classListener cls meth x.1 x.2) }, a.2.2.map (·.any Ret.truthy))

/-- CommandClass.py:104-125 -/
def classHandle (e : Env σ) (w : World σ) (cls : Nat) (m : Msg) : World σ × Py Bool :=
  match nameOf m with
  | none => (w, .ok false)
  | some name =>
    match e.handler cls m.hid with
    | none => askClass e w cls name m
    | some h =>
      let a := h m w.user
      let w := { w with user := a.1, trace := w.trace ++ [.handler cls a.2] }
      match a.2 with
      | .error x => (w, .error x)
      | .ok r => if r.truthy then (w, .ok true) else askClass e w cls name m

/-- The listeners of the node are asked (node.py:174-180). -/
def askNode (e : Env σ) (w : World σ) (m : Msg) : World σ × Py Bool :=
  let a := ask (e.listeners m) w.user
  ({ w with user := a.1, trace := w.trace ++ a.2.1.map (fun x => .listener x.1 x.2) }, a.2.2.map (·.any Ret.truthy))

/-- node.py:172-180, after the command class has been asked. -/
def fallback (e : Env σ) (w : World σ) (taken : Bool) (m : Msg) : World σ × Py Bool :=
  if taken then (w, .ok true) else askNode e w m

/-- node.py:161-180, without the decorator. The result stands for the truth value of what is returned. -/
def handlePlain (e : Env σ) (w : World σ) (m : Msg) : World σ × Py Bool :=
  let o := Waiter.messageReceived w.waiter m
  let w := { w with waiter := o.1, trace := w.trace ++ [.offered o.2] }
  match o.2 with
  | .error x => (w, .error x)
  | .ok taken =>
    if e.supported m.cmdClass then
      let c := classHandle e w m.cmdClass m
      match c.2 with
      | .error x => (c.1, .error x)
      | .ok true => (c.1, .ok true)
      | .ok false => fallback e c.1 taken m
    else fallback e w taken m

/-- The report of node.py:32-38, 42-48. -/
def report (m : Msg) (status : Int) : Py Msg := do
  let sessionID ← passNum m "sessionID"
  construct Reg.Supervision.Report fun n =>
    if n = "moreStatusUpdates" then some (boolVal false)
    else if n = "wakeUpRequest" then some (boolVal false)
    else if n = "sessionID" then some sessionID
    else if n = "status" then some (.num .pyint status)
    else if n = "duration" then some (.num .pyint 0)
    else none

/-- node.py:30-50: sends the report and returns what the function returned. -/
def answer (e : Env σ) (w : World σ) (m : Msg) (handled : Bool) : World σ × Py Bool :=
  match report m (if handled then 0xFF else 0x00) with
  | .error x => (w, .error x)
  | .ok r =>
    let a := e.send r w.user
    ({ w with user := a.1, trace := w.trace ++ [.sent r a.2] }, a.2.map fun _ => handled)

/-- node.py:23-52, 160-180: `Node.handleMessage`. -/
def handleMessage (e : Env σ) (w : World σ) (m : Msg) : World σ × Py Bool :=
  if m.hid = Reg.Supervision.Get.hid then
    match m.command with
    | none => (w, .error .attribute)                       -- None has no hid()
    | some c =>
      let a := handlePlain e w c
      match a.2 with
      | .error x => (a.1, .error x)
      | .ok handled => answer e a.1 m handled
  else handlePlain e w m

/-! ## The storage lock -/

/-- node.py:55-60 -/
inductive Storage
  | clean
  | lockedClean
  | lockedDirty
  deriving DecidableEq, Repr

/-- What happens to a node: `with node.storageLock():` is entered or left (normally or by an exception), a command class says it was updated. -/
inductive StorageOp
  | enter
  | leave
  | update
  deriving DecidableEq, Repr

/-- The status, and whether nodeUpdated is told to the listeners. -/
def storageStep (s : Storage) : StorageOp → Storage × Bool
  | .enter => (.lockedClean, false)                                   -- node.py:274
  | .leave => (.clean, s == .lockedDirty)                             -- node.py:277-279
  | .update =>                                                        -- node.py:124-131
    match s with
    | .clean => (.clean, true)
    | .lockedClean => (.lockedDirty, false)
    | .lockedDirty => (.lockedDirty, false)

/-- A history; the result says for each operation whether nodeUpdated was told. -/
def storageRun (s : Storage) : List StorageOp → List Bool
  | [] => []
  | o :: os => (storageStep s o).2 :: storageRun (storageStep s o).1 os

end Model.Node
