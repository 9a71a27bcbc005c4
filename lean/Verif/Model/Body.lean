import Verif.Model.Classes
/-!
# The interviews of the command classes

`interview()` of the subclasses (Version.py:28-34, ManufacturerSpecific.py:23-27, ZwavePlusInfo.py:25-31, SensorMultilevel.py:175-186, Association.py:135-189,
AssociationGrpInfo.py:195-203) as programs that ask and send and go on with what that gives. The other classes have the method of the base class (CommandClass.py:132-139), which
asks nothing. While a program waits anything may happen to the attributes of the class: handlers of reports, other interviews of the class, loading.
When and with which messages a request ends is the subject of `Model/Node.lean`; what `interviewDecorator` does with the result that of `Model/Interview.lean`.
-/
namespace Model.Body
open Model.Listen (Ret)
open Model.Classes

/-- What is asked for with `sendAndReceive`. -/
inductive Query
  | version                           -- VersionGet, VersionReport
  | manufacturer                      -- ManufacturerSpecific.Get, Report
  | plusInfo                          -- ZwavePlusInfo.Get, Report
  | sensors                           -- SupportedGetSensor, SupportedSensorReport
  | scales (t : Nat)                  -- SupportedGetScale, SupportedScaleReport
  | groupings                         -- GroupingsGet, GroupingsReport
  | group (multi : Bool) (g : Int)    -- MultiChannelGet, MultiChannelReport or Get, Report
  deriving DecidableEq, Repr

/-- What is sent with `send`. -/
inductive Command
  | lifeLine (m : Msg)                -- Association.py:177-188
  | groupInfo                         -- AssociationGrpInfo.py:198-200
  deriving DecidableEq, Repr

/-- The message that is sent to ask. -/
def Query.request : Query → Py Msg
  | .version => construct Reg.Version.VersionGet fun _ => none
  | .manufacturer => construct Reg.ManufacturerSpecific.Get fun _ => none
  | .plusInfo => construct Reg.ZwavePlusInfo.Get fun _ => none
  | .sensors => construct Reg.SensorMultilevel.SupportedGetSensor fun _ => none
  | .scales t => construct Reg.SensorMultilevel.SupportedGetScale fun n => if n = "sensorType" then some (.num .pyint t) else none
  | .groupings => construct Reg.Association.GroupingsGet fun _ => none
  | .group multi g =>
    construct (if multi then Reg.MultiChannelAssociation.MultiChannelGet else Reg.Association.Get) fun n => if n = "groupingIdentifier" then some (.num .pyint g) else none

/-- The type of the message that is waited for. -/
def Query.awaits : Query → MsgDef
  | .version => Reg.Version.VersionReport
  | .manufacturer => Reg.ManufacturerSpecific.Report
  | .plusInfo => Reg.ZwavePlusInfo.Report
  | .sensors => Reg.SensorMultilevel.SupportedSensorReport
  | .scales _ => Reg.SensorMultilevel.SupportedScaleReport
  | .groupings => Reg.Association.GroupingsReport
  | .group multi _ => if multi then Reg.MultiChannelAssociation.MultiChannelReport else Reg.Association.Report

/-- The message that is sent. -/
def Command.message : Command → Py Msg
  | .lifeLine m => .ok m
  | .groupInfo => construct Reg.AssociationGrpInfo.GroupInfoGet fun n =>
    if n = "refreshCache" then some (.num .pyint 0) else if n = "listMode" then some (.num .pyint 1) else if n = "groupingIdentifier" then some (.num .pyint 0) else none

/-- A program with attributes `σ`. -/
inductive Prog (σ : Type)
  | ret (r : Py Ret)
  | ask (q : Query) (k : Py Msg → Prog σ)
  | send (c : Command) (k : Py Bool → Prog σ)
  | look (k : σ → Prog σ)
  | write (f : σ → σ) (p : Prog σ)

/-- What ends a wait: what others have done to the attributes until then, and the result of the request or of the send. -/
structure Reply (σ : Type) where
  others : σ → σ
  msg : Py Msg
  ack : Py Bool

/-- What an interview has done; the result of the last one is open while it waits. -/
inductive Item
  | asked (q : Query) (r : Option (Py Msg))
  | sent (c : Command) (r : Option (Py Bool))
  deriving DecidableEq, Repr

/-- The attributes, what was done, and the result if the interview has ended. -/
structure Out (σ : Type) where
  attrs : σ
  items : List Item
  result : Option (Py Ret)

/-- Something was done before. -/
def Out.after {σ : Type} (i : Item) (o : Out σ) : Out σ := { o with items := i :: o.items }

/-- A program with the first replies. -/
def exec {σ : Type} : Prog σ → σ → List (Reply σ) → Out σ
  | .ret r, s, _ => ⟨s, [], some r⟩
  | .ask q _, s, [] => ⟨s, [.asked q none], none⟩
  | .ask q k, s, x :: xs => (exec (k x.msg) (x.others s) xs).after (.asked q (some x.msg))
  | .send c _, s, [] => ⟨s, [.sent c none], none⟩
  | .send c k, s, x :: xs => (exec (k x.ack) (x.others s) xs).after (.sent c (some x.ack))
  | .look k, s, xs => exec (k s) s xs
  | .write f p, s, xs => exec p (f s) xs

/-! ## Version, ManufacturerSpecific, ZwavePlusInfo -/

/-- `self.x = report.x` for each name in turn. -/
def copy (m : Msg) : List String → Prog (Dict String Int)
  | [] => .ret (.ok .none)
  | n :: ns =>
    match needNum m n with
    | .error e => .ret (.error e)
    | .ok v => .write (fun d => d.set n v) (copy m ns)

/-- A class that asks for one report and copies these attributes. -/
def copying (q : Query) (names : List String) : Prog (Dict String Int) :=
  .ask q fun r =>
    match r with
    | .error e => .ret (.error e)
    | .ok m => copy m names

/-- Version.py:28-34 -/
def version : Prog (Dict String Int) := copying .version Copy.versionNames
/-- ManufacturerSpecific.py:23-27 -/
def manufacturer : Prog (Dict String Int) := copying .manufacturer Copy.manufacturerNames
/-- ZwavePlusInfo.py:25-31 -/
def plusInfo : Prog (Dict String Int) := copying .plusInfo Copy.plusNames

/-! ## SensorMultilevel -/

/-- Loop of SensorMultilevel.py:182-186. -/
def sensorLoop : List Nat → Prog Sensor.State
  | [] => .ret (.ok .none)
  | t :: ts => .ask (.scales t) fun r =>
    match r with
    | .error e => .ret (.error e)
    | .ok m =>
      match needNum m "scaleBitMask" with
      | .error e => .ret (.error e)
      | .ok mask => .write (fun s => { s with types := s.types.set t mask }) (sensorLoop ts)

/-- SensorMultilevel.py:175-186 -/
def sensor : Prog Sensor.State :=
  .look fun s =>
    if s.version < 5 then .ret (.ok .none)
    else .ask .sensors fun r =>
      match r with
      | .error e => .ret (.error e)
      | .ok m =>
        match getAttr registry m "bitMask" with
        | some (.sensors l) => sensorLoop l
        | _ => .ret (.error .type)

/-! ## Association -/

/-- Association.py:145-161, then `k`. The group that is changed is the one that was there when it was asked for (line 147); as groups are not removed by anything but loading it is
taken to be the one that is there when the answer comes. -/
def grouping (supp : Nat → Bool) (g : Int) (k : Py Unit → Prog (Dict Int Assoc.Group)) : Prog (Dict Int Assoc.Group) :=
  .look fun d =>
    if d.mem g then
      .ask (.group (supp 0x8E) g) fun r =>
        match r with
        | .error e => k (.error e)
        | .ok m => .look fun d => .write (fun d => (Assoc.update d g m).1) (k (Assoc.update d g m).2)
    else k (.error .key)

/-- Association.py:163-189 -/
def lifeLine (supp : Nat → Bool) (g : Int) : Prog (Dict Int Assoc.Group) :=
  let finish (r : Py Unit) : Prog (Dict Int Assoc.Group) := .ret (r.map fun _ => .none)
  if supp 0x5E then
    .look fun d =>
      match d.get? g with
      | none => .ret (.ok .none)
      | some grp =>
        if Assoc.contains grp.nodes 1 0 then .ret (.ok .none)
        else
          match Assoc.lifeLineMsg supp g with
          | .error e => .ret (.error e)
          | .ok m => .send (.lifeLine m) fun r =>
            match r with
            | .error e => .ret (.error e)
            | .ok _ => grouping supp g finish
  else .ret (.ok .none)

/-- Loop of Association.py:138-142. If the number of groups has changed since the loop began, taking the next one raises RuntimeError. -/
def groupLoop (supp : Nat → Bool) (size : Nat) : List Int → Prog (Dict Int Assoc.Group)
  | [] => .look fun d => if d.length = size then lifeLine supp 1 else .ret (.error .runtime)
  | g :: gs => .look fun d =>
    if d.length = size then
      grouping supp g fun r =>
        match r with
        | .ok () | .error .timeout => groupLoop supp size gs
        | .error e => .ret (.error e)
    else .ret (.error .runtime)

/-- Association.py:135-143 -/
def association (supp : Nat → Bool) : Prog (Dict Int Assoc.Group) :=
  .ask .groupings fun r =>
    match r with
    | .error e => .ret (.error e)
    | .ok m =>
      match needNum m "supportedGroupings" with
      | .error e => .ret (.error e)
      | .ok n => .write (fun d => Assoc.setNumGroups d n) (.look fun d => groupLoop supp d.length d.keys)

/-! ## The others -/

/-- AssociationGrpInfo.py:195-203 -/
def groupInfo {σ : Type} : Prog σ :=
  .send .groupInfo fun r =>
    match r with
    | .error e => .ret (.error e)
    | .ok _ => .ret (.ok (.bool true))

/-- CommandClass.py:132-139 -/
def base {σ : Type} : Prog σ := .ret (.ok .none)

end Model.Body
