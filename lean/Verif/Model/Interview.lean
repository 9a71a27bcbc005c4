import Verif.Model.Listen
/-!
# Interviews

`interviewDecorator`, `CommandClass.requestVersion`, the `interviewed` mark and the version (CommandClass.py:64-89, 97-102, 141-144, 156-170, 191-205), for one command
class object under asyncio. The interview itself (a method of the subclass) may return anything or raise anything. As in `Model/Waiter.lean` the schedule is
adversarial and an operation that is not possible does nothing.
-/
namespace Model.Interview
open Model.Listen

/-- How a call ended. -/
inductive How
  | noVersion            -- the version is not known
  | finished             -- the interview returned
  | timedOut             -- the interview raised TimeoutError
  | raised               -- something else was raised
  | version (n : Nat)    -- requestVersion() returned the number
  deriving DecidableEq, Repr

/-- Where a call is suspended. -/
inductive Pc
  | version              -- awaits the version report
  | body                 -- awaits the interview of the subclass
  | done (how : How) (r : Py Ret)
  deriving DecidableEq, Repr

/-- A call of interview() or, if `only`, of requestVersion(). -/
structure Call where
  only : Bool
  pc : Pc
  deriving DecidableEq, Repr

/-- A command class. `told` counts the commandClassUpdated notifications. -/
structure State where
  id : Nat
  version : Nat
  interviewed : Bool
  calls : List Call
  told : Nat
  deriving DecidableEq, Repr

/-- CommandClass.py:97-102 -/
def fresh (id : Nat) : State := ⟨id, 0, false, [], 0⟩

/-- What can happen. -/
inductive Op
  | interview                                  -- a call of interview()
  | requestVersion                             -- a call of requestVersion()
  | versionAnswer (i : Nat) (r : Py Nat)       -- the sendAndReceive of call `i` for the version ends
  | bodyEnds (i : Nat) (r : Py Ret)            -- the interview of the subclass for call `i` ends
  | load (version : Nat) (interviewed : Bool)  -- __setstate__
  deriving DecidableEq, Repr

/-- The result of requestVersion() as a value. -/
def verRet (v : Nat) : Ret := .other (v ≠ 0)

/-- One operation. -/
def step (s : State) : Op → State
  | .interview =>
    if s.version = 0 then
      if s.id = 0 then { s with calls := s.calls ++ [⟨false, .done .noVersion (.ok .none)⟩] }       -- CommandClass.py:158-160, 73-77
      else { s with calls := s.calls ++ [⟨false, .version⟩] }                                       -- CommandClass.py:70-72
    else { s with interviewed := false, calls := s.calls ++ [⟨false, .body⟩] }                      -- CommandClass.py:78-80
  | .requestVersion =>
    if s.id = 0 then { s with calls := s.calls ++ [⟨true, .done (.version 0) (.ok (verRet 0))⟩] }       -- CommandClass.py:158-160
    else { s with calls := s.calls ++ [⟨true, .version⟩] }                                          -- CommandClass.py:161-165
  | .versionAnswer i r =>
    match s.calls[i]? with
    | none => s
    | some c =>
      if c.pc = .version then
        match r with
        | .error .timeout =>                                                                        -- CommandClass.py:167-168, 73-77
          { s with calls := s.calls.set i { c with pc := if c.only then .done (.version 0) (.ok (verRet 0)) else .done .noVersion (.ok .none) } }
        | .error e => { s with calls := s.calls.set i { c with pc := .done .raised (.error e) } }
        | .ok v =>                                                                                  -- CommandClass.py:166, 169-170
          let s := { s with version := v, told := s.told + 1 }
          if c.only then { s with calls := s.calls.set i { c with pc := .done (.version v) (.ok (verRet v)) } }
          else if v = 0 then { s with calls := s.calls.set i { c with pc := .done .noVersion (.ok .none) } }     -- CommandClass.py:73-77
          else { s with interviewed := false, calls := s.calls.set i { c with pc := .body } }                    -- CommandClass.py:78-80
      else s
  | .bodyEnds i r =>
    match s.calls[i]? with
    | none => s
    | some c =>
      if c.pc = .body then
        match r with
        | .error .timeout => { s with calls := s.calls.set i { c with pc := .done .timedOut (.ok (.bool false)) } }   -- CommandClass.py:81-83
        | .error e => { s with calls := s.calls.set i { c with pc := .done .raised (.error e) } }
        | .ok v =>                                                                                                    -- CommandClass.py:84-87
          { s with interviewed := if v = .bool false then s.interviewed else true, told := s.told + 1,
                   calls := s.calls.set i { c with pc := .done .finished (.ok v) } }
      else s
  | .load v b => { s with version := v, interviewed := b }                                          -- CommandClass.py:202-205

/-- A schedule. -/
def run (s : State) (ops : List Op) : State := ops.foldl step s

end Model.Interview
