import Verif.Model.Codec
import Verif.Model.Registry
/-!
# Asking for the version of a command class

The messages of `CommandClass.requestVersion` (CommandClass.py:156-170). When the call is suspended and what it does to the class is the subject of `Model/Interview.lean`.
-/
namespace Model.Version

/-- CommandClass.py:162-163 -/
def question (id : Nat) : Py Msg :=
  construct Reg.Version.VersionCommandClassGet fun n => if n = "requestedCommandClass" then some (.num .pyint id) else none

/-- CommandClass.py:161-166: the version that is taken from the answer. `int(None)` raises TypeError. -/
def taken : Py Msg → Py Nat
  | .error e => .error e
  | .ok m =>
    match getAttr registry m "commandClassVersion" with
    | some (.num _ v) => .ok v.toNat
    | _ => .error .type

end Model.Version
