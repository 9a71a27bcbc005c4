import Verif.Model.Body
import Verif.Model.Interview
/-!
# A command class with its interviews

`interviewDecorator` (`Model/Interview.lean`) around the interviews of the subclasses (`Model/Body.lean`), for one command class object: any number of interviews overlap, and the
attributes are the ones they all write. Whatever `interview()` does between two awaits it does at once. As elsewhere the schedule is adversarial and an operation that is not
possible does nothing. When and with which messages a request ends is the subject of `Model/Node.lean`.
-/
namespace Model.ClassRun
open Model.Listen (Ret)
open Model.Body

/-- A command class with attributes `σ`: its interview, and how the attributes change with the version of the class. -/
structure Cls (σ : Type) where
  prog : Prog σ
  version : Nat → σ → σ

/-- Call `i` has got an answer or an acknowledgement. -/
structure Ev where
  call : Nat
  item : Item
  deriving DecidableEq, Repr

/-- A command class object. `bodies` has the rest of the interview of the subclass for each call. -/
structure State (σ : Type) where
  dec : Interview.State
  attrs : σ
  bodies : List (Prog σ)
  trace : List Ev

/-- CommandClass.py:97-102 -/
def fresh {σ : Type} (id : Nat) (a : σ) : State σ := ⟨Interview.fresh id, a, [], []⟩

/-- What a program does until it waits or ends. -/
def pause {σ : Type} : Prog σ → σ → σ × Prog σ
  | .look k, s => pause (k s) s
  | .write f p, s => pause p (f s)
  | p, s => (s, p)

/-- Call `i` goes on with the program. -/
def go {σ : Type} (s : State σ) (i : Nat) (p : Prog σ) : State σ :=
  let a := pause p s.attrs
  let s := { s with attrs := a.1, bodies := s.bodies.set i a.2 }
  match a.2 with
  | .ret r => { s with dec := Interview.step s.dec (.bodyEnds i r) }
  | _ => s

/-- Where call `i` is. -/
def pcOf (d : Interview.State) (i : Nat) : Option Interview.Pc := (d.calls[i]?).map (·.pc)

/-- What can happen. -/
inductive Op (σ : Type)
  | interview
  | requestVersion
  | versionAnswer (i : Nat) (r : Py Nat)
  | answer (i : Nat) (r : Py Msg)                         -- the request of call `i` ends
  | acked (i : Nat) (r : Py Bool)                         -- the send of call `i` ends
  | load (version : Nat) (interviewed : Bool) (f : σ → σ) -- __setstate__
  | others (f : σ → σ)                                    -- a handler of a message

/-- One operation. -/
def step {σ : Type} (c : Cls σ) (s : State σ) : Op σ → State σ
  | .interview =>
    let s' : State σ := { s with dec := Interview.step s.dec .interview, bodies := s.bodies ++ [.ret (.ok .none)] }
    if pcOf s'.dec s.dec.calls.length = some .body then go s' s.dec.calls.length c.prog else s'          -- CommandClass.py:78-80
  | .requestVersion => { s with dec := Interview.step s.dec .requestVersion, bodies := s.bodies ++ [.ret (.ok .none)] }
  | .versionAnswer i r =>
    let d := Interview.step s.dec (.versionAnswer i r)
    let s' : State σ := { s with dec := d, attrs := c.version d.version s.attrs }
    if pcOf s.dec i = some .version ∧ pcOf d i = some .body then go s' i c.prog else s'                    -- CommandClass.py:70-72, 78-80
  | .answer i r =>
    match s.bodies[i]? with
    | some (.ask q k) => go { s with trace := s.trace ++ [⟨i, .asked q (some r)⟩] } i (k r)
    | _ => s
  | .acked i r =>
    match s.bodies[i]? with
    | some (.send q k) => go { s with trace := s.trace ++ [⟨i, .sent q (some r)⟩] } i (k r)
    | _ => s
  | .load v b f => { s with dec := Interview.step s.dec (.load v b), attrs := c.version v (f s.attrs) }
  | .others f => { s with attrs := f s.attrs }

/-- A schedule. -/
def run {σ : Type} (c : Cls σ) (s : State σ) (ops : List (Op σ)) : State σ := ops.foldl (step c) s

/-- The classes. -/
def version : Cls (Dict String Int) := ⟨Body.version, fun _ d => d⟩
def manufacturer : Cls (Dict String Int) := ⟨Body.manufacturer, fun _ d => d⟩
def plusInfo : Cls (Dict String Int) := ⟨Body.plusInfo, fun _ d => d⟩
def sensor : Cls Classes.Sensor.State := ⟨Body.sensor, fun v s => { s with version := v }⟩
def association (supp : Nat → Bool) : Cls (Dict Int Classes.Assoc.Group) := ⟨Body.association supp, fun _ d => d⟩

end Model.ClassRun
