import Verif.Model.Persist
import Verif.Spec.Storage
/-!
# Specification: settings on disk
-/
namespace Spec.Persist
open Model Model.Storage Model.Persist Spec.Storage

/-- The node as it is created when the program is started again. -/
def blank (n : Classes) : Classes := n.map fun p => (p.1, ClassState.fresh)

/-- The settings are on disk: starting again, loading the node succeeds and gives every command class its version and its attributes. (That the mark `interviewed` and the
numbers in lists are not kept is C65 and C66.) -/
def Saved (lib : Yaml) (fs : Files lib) (nodeId : Str) (n : Classes) : Prop :=
  ∃ r, nodeAdded lib fs nodeId (blank n) = (r, .ok ()) ∧
    ∀ c st, Dict.get? n c = some st → ∃ st', Dict.get? r c = some st' ∧ st'.version = st.version ∧ SameAttrs st'.attrs (attrsLoaded st.attrs)

/-- Attributes have their declared types. -/
def OpOk : Op → Prop
  | .learn c a => Typed (attrsOf c) a
  | _ => True

/-- The report has all its attributes. -/
def Complete (m : Msg) : Prop := ∃ n v z, Classes.needNum m "parameterNumber" = .ok n ∧ Classes.needNum m "value" = .ok v ∧ Classes.needNum m "size" = .ok z

/-- Operations that change attributes without anything being said about it. -/
def Silent : Op → Prop
  | .learn _ _ => True
  | .groupInfo _ _ => True
  | .groupName _ _ => True
  | .groupCommands _ _ => True
  | .config m => ¬ Complete m
  | _ => False

/-- How many interviews of `c` have begun, and how many have ended in one way or another. -/
def begun (c : Nat) (ops : List Op) : Nat := ops.countP fun o => match o with
  | .begin d => d = c
  | _ => false

def over (c : Nat) (ops : List Op) : Nat := ops.countP fun o => match o with
  | .ended d _ => d = c
  | .failed d => d = c
  | _ => false

/-- No interview is running. -/
def Idle (ops : List Op) : Prop := ∀ c, begun c ops = over c ops

/-- The operation is about the command class `c`. -/
def touches (c : Nat) : Op → Bool
  | .version d _ => d = c
  | .begin d => d = c
  | .learn d _ => d = c
  | .ended d _ => d = c
  | .failed d => d = c
  | .config _ => c = 0x70
  | .groupInfo _ _ => c = 0x59
  | .groupName _ _ => c = 0x59
  | .groupCommands _ _ => c = 0x59
  | .enter => false
  | .leave => false

/-- The class has what was saved: the version, and every attribute with its value. -/
def Restored (saved : ClassState) (st : ClassState) : Prop :=
  st.version = saved.version ∧ ∀ n v, Dict.get? saved.attrs n = some v → ∃ w, Dict.get? st.attrs n = some w ∧ SameAttr w (attrLoaded v)

/-- What an operation of the application told the listeners. -/
def told (a b : App.State) : List App.Ev := b.trace.drop a.trace.length

end Spec.Persist
