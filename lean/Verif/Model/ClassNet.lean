import Verif.Model.System
import Verif.Model.ClassRun
import Verif.Model.Version
/-!
# A command class in the network

A command class object with its interviews (`Model/ClassRun.lean`) in the system of `Model/System.lean`: what an interview asks is asked with `Node.sendAndReceive` of the node object
the class belongs to, what it sends is sent with `Node.send` (CommandClass.py:161-165, 177-191, node.py:237-252), and it goes on with what that gives. Everything else that can happen
happens in between: other calls for the node and for other nodes, other command classes of the node, datagrams, changes of the table of nodes.

Everything that happens to the system is something that can happen in `Model/System.lean`, and everything that happens to the class is something that can happen in `Model/ClassRun.lean`.

Simplification: handlers of messages (`others`) and loading may change the attributes of the class at any time and in any way; for the messages they handle see `Model/Device.lean`.
-/
namespace Model.ClassNet
open Model.App (Nd)
open Model.ClassRun (Cls pcOf)
open Model.Body (Query Command)

/-- What a call of `interview()` or `requestVersion()` awaits: call number `t` among the waiting calls of the node object, or call number `k` of `sendToNode`. -/
inductive Wait
  | received (t : Nat)
  | sent (k : Nat)
  deriving DecidableEq, Repr

/-- Everything. `waits` has an entry for each call of `interview()` and `requestVersion()`. -/
structure State (σ : Type) where
  sys : System.State
  cls : ClassRun.State σ
  waits : List (Option Wait)

/-- What a call wants to do next. -/
inductive Want
  | ask (cmd : Py Msg) (hid : Nat)
  | send (cmd : Py Msg)

/-- What call `i` is about to await. -/
def wants {σ : Type} (s : ClassRun.State σ) (i : Nat) : Option Want :=
  match pcOf s.dec i with
  | some .version => some (.ask (Version.question s.dec.id) Reg.Version.VersionCommandClassReport.hid)          -- CommandClass.py:161-165
  | some .body =>
    match s.bodies[i]? with
    | some (.ask q _) => some (.ask q.request q.awaits.hid)
    | some (.send c _) => some (.send c.message)
    | _ => none
  | _ => none

/-- Call `i` asks or sends (node.py:237-252), or has ended. The messages can always be constructed (`Props.ClassNet.constructed`). -/
def issue {σ : Type} (nd : Nd) (s : State σ) (i : Nat) : State σ :=
  match wants s.cls i with
  | some (.ask (.ok cmd) hid) =>
    { s with sys := System.step s.sys (.ask nd cmd hid 3), waits := s.waits.set i (some (.received (s.sys.waiters nd.obj).tasks.length)) }
  | some (.send (.ok cmd)) =>
    { s with sys := System.step s.sys (.net (.send nd.root cmd 0 nd.ep 3)), waits := s.waits.set i (some (.sent s.sys.net.calls.length)) }
  | _ => { s with waits := s.waits.set i none }

/-- What call `i` awaits has ended: what happens to the class. -/
def gives {σ : Type} (nd : Nd) (s : State σ) (i : Nat) : Option (ClassRun.Op σ) :=
  match s.waits[i]? with
  | some (some (.received t)) =>
    match (s.sys.waiters nd.obj).tasks[t]? with
    | some u =>
      match u.pc with
      | .done r => some (if pcOf s.cls.dec i = some .version then .versionAnswer i (Version.taken r) else .answer i r)
      | _ => none
    | none => none
  | some (some (.sent k)) =>
    match s.sys.net.calls[k]? with
    | some d =>
      match d.pc with
      | .done r => some (.acked i r)
      | _ => none
    | none => none
  | _ => none

/-- What can happen. -/
inductive Op (σ : Type)
  | interview
  | requestVersion
  | proceed (i : Nat)                                     -- call `i` goes on after what it awaited
  | sys (o : System.Op)                                   -- anything else that can happen
  | load (version : Nat) (interviewed : Bool) (f : σ → σ) -- __setstate__
  | others (f : σ → σ)                                    -- a handler of a message

/-- One operation. -/
def step {σ : Type} (nd : Nd) (c : Cls σ) (s : State σ) : Op σ → State σ
  | .interview => issue nd { s with cls := ClassRun.step c s.cls .interview, waits := s.waits ++ [none] } s.waits.length
  | .requestVersion => issue nd { s with cls := ClassRun.step c s.cls .requestVersion, waits := s.waits ++ [none] } s.waits.length
  | .proceed i =>
    match gives nd s i with
    | some o => issue nd { s with cls := ClassRun.step c s.cls o } i
    | none => s
  | .sys o => { s with sys := System.step s.sys o }
  | .load v b f => { s with cls := ClassRun.step c s.cls (.load v b f) }
  | .others f => { s with cls := ClassRun.step c s.cls (.others f) }

/-- A schedule. -/
def run {σ : Type} (nd : Nd) (c : Cls σ) (s : State σ) (ops : List (Op σ)) : State σ := ops.foldl (step nd c) s

/-- A new application with a new gateway, and a new command class object of the node object. -/
def init {σ : Type} (own id : Nat) (a : σ) : State σ := ⟨System.init own, ClassRun.fresh id a, []⟩

end Model.ClassNet
