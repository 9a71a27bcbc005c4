import Verif.Model.Node
/-!
# Command classes that keep state

Configuration, SensorMultilevel, Association, AssociationGrpInfo and the classes that copy a report (Version, ManufacturerSpecific, ZwavePlusInfo). What a
`sendAndReceive` gives is an argument (`Py Msg`: the report or what was raised); which reports it can give is the subject of `Model/Node.lean` and `Model/Waiter.lean`.
Attributes of reports are read with `getAttr`, so truncated reports are covered.
-/
namespace Model.Classes
open Model.Listen (Ret)

/-- An integer attribute, None if the report is too short. -/
def numAttr (m : Msg) (name : String) : Option Int :=
  match getAttr registry m name with
  | some (.num _ v) => some v
  | _ => none

/-- `int(report.name)`, `uint8_t(report.name)`: None raises TypeError. -/
def needNum (m : Msg) (name : String) : Py Int :=
  match numAttr m name with
  | some v => .ok v
  | none => .error .type

/-! ## Configuration -/
namespace Config

/-- Configuration.py:111-114. An attribute that is not set reads as 0 (util.py:69-78). -/
structure Param where
  value : Int
  size : Int
  deriving DecidableEq, Repr

/-- Configuration.py:125-132 -/
def report (d : Dict Int Param) (m : Msg) : Dict Int Param × Py Ret :=
  match needNum m "parameterNumber" with
  | .error e => (d, .error e)
  | .ok n =>
    let p := (d.get? n).getD ⟨0, 0⟩
    let d := d.set n p                                  -- setdefault
    match needNum m "value" with
    | .error e => (d, .error e)
    | .ok v =>
      let p := { p with value := v }
      let d := d.set n p
      match needNum m "size" with
      | .error e => (d, .error e)
      | .ok z => (d.set n { p with size := z }, .ok (.bool true))

/-- What is sent to the node. -/
inductive Sent
  | get (n : Int)
  | set (n size value : Int)
  deriving DecidableEq, Repr

/-- A call of get(). The value of a report that is too short is None. -/
inductive Get
  | waiting (n : Int)
  | done (n : Int) (r : Py (Option Int))
  deriving DecidableEq, Repr

/-- The command class. -/
structure State where
  params : Dict Int Param
  gets : List Get
  sent : List Sent
  deriving DecidableEq, Repr

/-- What can happen. -/
inductive Op
  | report (m : Msg)                    -- a Configuration report is handled
  | get (n : Int) (cached : Bool)       -- get(n, cached) is called
  | answer (i : Nat) (r : Py Msg)       -- the sendAndReceive of the i-th get ends
  | set (n size value : Int)            -- set(n, size, value) is called
  | load (d : Dict Int Param)           -- __setstate__
  deriving Repr

/-- One operation. -/
def step (s : State) : Op → State
  | .report m => { s with params := (report s.params m).1 }
  | .get n cached =>                                                                       -- Configuration.py:134-138
    match (if cached then s.params.get? n else none) with
    | some p => { s with gets := s.gets ++ [.done n (.ok (some p.value))] }
    | none => { s with gets := s.gets ++ [.waiting n], sent := s.sent ++ [.get n] }
  | .answer i r =>                                                                         -- Configuration.py:138-139
    match s.gets[i]? with
    | some (.waiting n) => { s with gets := s.gets.set i (.done n (r.map fun m => numAttr m "value")) }
    | _ => s
  | .set n size value => { s with sent := s.sent ++ [.set n size value] }                  -- Configuration.py:141-145
  | .load d => { s with params := d }                                                      -- util.py:111-120

/-- A schedule. -/
def run (s : State) (ops : List Op) : State := ops.foldl step s

/-- A new command class. -/
def fresh : State := ⟨[], [], []⟩

end Config

/-! ## SensorMultilevel -/
namespace Sensor

/-- The version and `supportedTypes`. -/
structure State where
  version : Nat
  types : Dict Int Int
  deriving DecidableEq, Repr

/-- SensorMultilevel.py:160-173 -/
def report (s : State) (m : Msg) : Py Ret :=
  if s.version < 5 then .ok (.bool false)
  else
    match numAttr m "sensorType" with
    | none => .ok (.bool true)                                       -- supportedTypes.get(None)
    | some t =>
      match s.types.get? t with
      | none => .ok (.bool true)
      | some mask =>
        if mask = 0 then .ok (.bool true)
        else
          match getAttr registry m "sensorValue" with
          | some (.float _ _ _ scale) => if mask.toNat &&& (1 <<< scale) = 0 then .ok (.bool true) else .ok .none
          | _ => .error .attribute                                   -- None has no scale

/-- Loop of SensorMultilevel.py:182-186. -/
def scales (ans : Nat → Py Msg) : List Nat → Dict Int Int → Dict Int Int × Py Unit
  | [], d => (d, .ok ())
  | t :: ts, d =>
    match ans t with
    | .error e => (d, .error e)
    | .ok m =>
      match needNum m "scaleBitMask" with
      | .error e => (d, .error e)
      | .ok mask => scales ans ts (d.set t mask)

/-- SensorMultilevel.py:175-186. `first` is what the request for the sensors gives and `ans t` what that for the scales of type `t` gives. -/
def interview (s : State) (first : Py Msg) (ans : Nat → Py Msg) : State × Py Unit :=
  if s.version < 5 then (s, .ok ())
  else
    match first with
    | .error e => (s, .error e)
    | .ok m =>
      match getAttr registry m "bitMask" with
      | some (.sensors l) => let a := scales ans l s.types; ({ s with types := a.1 }, a.2)
      | _ => (s, .error .type)

/-- What can happen. -/
inductive Op
  | version (v : Nat)                                     -- requestVersion() or loading
  | interview (first : Py Msg) (ans : Nat → Py Msg)
  | report (m : Msg)

/-- One operation. -/
def step (s : State) : Op → State
  | .version v => { s with version := v }
  | .interview first ans => (interview s first ans).1
  | .report _ => s

/-- A history. -/
def run (s : State) (ops : List Op) : State := ops.foldl step s

end Sensor

/-! ## Association -/
namespace Assoc

/-- Association.py:96-102 -/
structure Group where
  maxNodes : Int
  nodes : List (Nat × Option Nat)
  deriving DecidableEq, Repr

/-- Loop of Association.py:110-115: `n` numbers from `i`. -/
def addGroups (i : Int) : Nat → Dict Int Group → Dict Int Group
  | 0, d => d
  | n + 1, d => addGroups (i + 1) n (if d.mem i then d else d.set i ⟨0, []⟩)

/-- Association.py:108-115 -/
def setNumGroups (d : Dict Int Group) (number : Int) : Dict Int Group := addGroups 1 number.toNat d

/-- What happens on the way. -/
inductive Ev
  | askGroups                       -- GroupingsGet
  | ask (multi : Bool) (g : Int)    -- MultiChannelGet or Get
  | set (m : Msg)
  deriving DecidableEq, Repr

/-- Association.py:157-161, what a report does to the group. -/
def update (d : Dict Int Group) (g : Int) (m : Msg) : Dict Int Group × Py Unit :=
  if numAttr m "groupingIdentifier" = some g then
    match needNum m "maxNodesSupported" with
    | .error e => (d, .error e)
    | .ok mx =>
      match getAttr registry m "nodes" with
      | some (.nodes l) => (d.set g ⟨mx, l⟩, .ok ())
      | _ => (d, .error .type)
  else (d, .ok ())

/-- Association.py:145-161. `supp` is `node.supports` and `r` what the request gives. -/
def interviewGrouping (supp : Nat → Bool) (d : Dict Int Group) (g : Int) (r : Py Msg) : Dict Int Group × List Ev × Py Unit :=
  if d.mem g then
    match r with
    | .error e => (d, [.ask (supp 0x8E) g], .error e)
    | .ok m => ((update d g m).1, [.ask (supp 0x8E) g], (update d g m).2)
  else (d, [], .error .key)

/-- Loop of Association.py:138-142. -/
def interviewAll (supp : Nat → Bool) (ans : Int → Py Msg) : List Int → Dict Int Group → Dict Int Group × List Ev × Py Unit
  | [], d => (d, [], .ok ())
  | g :: gs, d =>
    let a := interviewGrouping supp d g (ans g)
    match a.2.2 with
    | .ok () | .error .timeout => let b := interviewAll supp ans gs a.1; (b.1, a.2.1 ++ b.2.1, b.2.2)
    | .error e => (a.1, a.2.1, .error e)

/-- Association.py:28-35 -/
def contains (l : List (Nat × Option Nat)) (nodeId endpoint : Nat) : Bool := l.any fun p => p.1 == nodeId && p.2.getD 0 == endpoint

/-- Association.py:177-188. Lists of node numbers and pairs are converted by `Nodes.__setstate__` (Association.py:46-57). -/
def lifeLineMsg (supp : Nat → Bool) (g : Int) : Py Msg :=
  if supp 0x60 && supp 0x8E then
    construct Reg.MultiChannelAssociation.MultiChannelSet fun n =>
      if n = "groupingIdentifier" then some (.num .pyint g) else if n = "nodes" then some (.nodes [(1, some 0)]) else none
  else
    construct Reg.Association.Set fun n =>
      if n = "groupingIdentifier" then some (.num .pyint g) else if n = "nodes" then some (.nodes [(1, none)]) else none

/-- Association.py:163-189. `sent` is what the send gives, `r` what the request after it gives. -/
def setupLifeLine (supp : Nat → Bool) (d : Dict Int Group) (g : Int) (sent : Py Bool) (r : Py Msg) : Dict Int Group × List Ev × Py Unit :=
  if supp 0x5E then                                     -- node.py:202-205
    match d.get? g with
    | none => (d, [], .ok ())
    | some grp =>
      if contains grp.nodes 1 0 then (d, [], .ok ())
      else
        match lifeLineMsg supp g with
        | .error e => (d, [], .error e)
        | .ok m =>
          match sent with
          | .error e => (d, [.set m], .error e)
          | .ok _ => let a := interviewGrouping supp d g r; (a.1, .set m :: a.2.1, a.2.2)
  else (d, [], .ok ())

/-- Association.py:135-143. `first` is what the request for the number of groups gives. -/
def interview (supp : Nat → Bool) (d : Dict Int Group) (first : Py Msg) (ans : Int → Py Msg) (sent : Py Bool) (r : Py Msg) : Dict Int Group × List Ev × Py Unit :=
  match first with
  | .error e => (d, [.askGroups], .error e)
  | .ok m =>
    match needNum m "supportedGroupings" with
    | .error e => (d, [.askGroups], .error e)
    | .ok n =>
      let d := setNumGroups d n
      let a := interviewAll supp ans d.keys d
      match a.2.2 with
      | .error e => (a.1, .askGroups :: a.2.1, .error e)
      | .ok () => let b := setupLifeLine supp a.1 1 sent r; (b.1, .askGroups :: a.2.1 ++ b.2.1, b.2.2)

end Assoc

/-! ## AssociationGrpInfo -/
namespace Agi

/-- AssociationGrpInfo.py:26-35. `none`: the attribute is not set. -/
structure Group where
  name : Option (List Nat)
  profile : Int
  commands : Option (List (UInt8 × UInt8))
  deriving DecidableEq, Repr

/-- What the handler of a group information report still has to do: the groups to come, and whether it awaits the first or the second send for the current one. -/
structure Info where
  current : Int
  second : Bool
  rest : List (Int × Int)
  deriving DecidableEq, Repr

/-- What is sent. -/
inductive Sent
  | nameGet (g : Int)
  | commandListGet (g : Int)
  deriving DecidableEq, Repr

/-- The command class, its running handlers (none: ended) and what was sent. -/
structure State where
  groups : Dict Int Group
  handlers : List (Option Info)
  sent : List Sent
  deriving DecidableEq, Repr

/-- What can happen. The handlers of the other two reports do not await anything. -/
inductive Op
  | info (groups : List (Int × Int))                                -- a report of groups with their profiles starts being handled
  | sent (i : Nat) (r : Py Bool)                                    -- the send the i-th handler awaits ends
  | name (g : Int) (name : List Nat)
  | commands (g : Int) (l : List (UInt8 × UInt8))
  deriving Repr

/-- Loop of AssociationGrpInfo.py:178-185: the next group is created and its first message sent. -/
def next (groups : Dict Int Group) : List (Int × Int) → Dict Int Group × Option Info × List Sent
  | [] => (groups, none, [])
  | (g, profile) :: rest => (groups.set g ⟨none, profile, none⟩, some ⟨g, false, rest⟩, [.nameGet g])

/-- One operation, and what the handler of a report returns or raises if it ends in it. -/
def step (s : State) : Op → State × Option (Py Ret)
  | .info l =>
    let a := next s.groups l
    (⟨a.1, s.handlers ++ [a.2.1], s.sent ++ a.2.2⟩, if a.2.1 = none then some (.ok (.bool true)) else none)
  | .sent i r =>
    match s.handlers[i]? with
    | some (some h) =>
      match r with
      | .error e => ({ s with handlers := s.handlers.set i none }, some (.error e))
      | .ok _ =>
        if h.second then
          let a := next s.groups h.rest
          (⟨a.1, s.handlers.set i a.2.1, s.sent ++ a.2.2⟩, if a.2.1 = none then some (.ok (.bool true)) else none)
        else (⟨s.groups, s.handlers.set i (some { h with second := true }), s.sent ++ [.commandListGet h.current]⟩, none)
    | _ => (s, none)
  | .name g name =>                                                                                     -- AssociationGrpInfo.py:188-193
    match s.groups.get? g with
    | none => (s, some (.ok (.bool true)))
    | some grp => ({ s with groups := s.groups.set g { grp with name := some name } }, some (.ok (.bool true)))
  | .commands g l =>                                                                                    -- AssociationGrpInfo.py:171-174
    match s.groups.get? g with
    | none => (s, some (.error .key))
    | some grp => ({ s with groups := s.groups.set g { grp with commands := some l } }, some (.ok (.bool true)))

/-- A schedule. -/
def run (s : State) (ops : List Op) : State := ops.foldl (fun s o => (step s o).1) s

/-- A new command class. -/
def fresh : State := ⟨[], [], []⟩

end Agi

/-! ## Classes that copy a report -/
namespace Copy

/-- `self.x = report.x` for each name in turn (Version.py:28-34, ManufacturerSpecific.py:23-27, ZwavePlusInfo.py:25-31). -/
def copy (m : Msg) : List String → Dict String Int → Dict String Int × Py Unit
  | [], d => (d, .ok ())
  | n :: ns, d =>
    match needNum m n with
    | .error e => (d, .error e)
    | .ok v => copy m ns (d.set n v)

/-- The interview with attributes `names`; `r` is what the request gives. -/
def interview (names : List String) (d : Dict String Int) (r : Py Msg) : Dict String Int × Py Unit :=
  match r with
  | .error e => (d, .error e)
  | .ok m => copy m names d

/-- Version.py:20-26 -/
def versionNames : List String := ["zwaveLibraryType", "zwaveProtocolVersion", "zwaveProtocolSubVersion", "applicationVersion", "applicationSubVersion"]
/-- ManufacturerSpecific.py:17-21 -/
def manufacturerNames : List String := ["manufacturerID", "productTypeID", "productID"]
/-- ZwavePlusInfo.py:17-23 -/
def plusNames : List String := ["zwavePlusVersion", "roleType", "nodeType", "installerIconType", "userIconType"]

end Copy
end Model.Classes
