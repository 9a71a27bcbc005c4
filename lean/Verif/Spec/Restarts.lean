import Verif.Spec.ClassNet
import Verif.Spec.Storage
/-!
# Restarts

The program is started again and again. A command class of a node begins anew each time and loads what the file of its node says, which was written in an earlier run, or in the same run
before the class loaded it. Two objects for the same class in one run, one after the other, count as two runs.
-/
namespace Spec.Restarts
open Model Model.ClassNet Model.Storage Spec.ClassNet Spec.Storage
open Model.ClassRun (Cls)

variable {σ : Type}

/-- How the class was after the operations `l`. -/
def at_ (h : Life σ) (l : List (Op σ)) : ClassRun.State σ := (h.after (h.pre.map .sys ++ l)).cls

/-- The class was like this at some time. -/
def Was (h : Life σ) (s : ClassRun.State σ) : Prop := ∃ l, l <+: h.ops ∧ s = at_ h l

/-- How the attributes of a class are saved and loaded. -/
structure Form (σ : Type) where
  /-- The attributes `d` are saved as `a`. -/
  Saves : σ → Dict String Attr → Prop
  /-- Loading `a` is `f`. -/
  Loads : Dict String Attr → (σ → σ) → Prop

/-- The file of a node was written with the class as it was in `s`, and loading it sets the version `v` and the mark `b` and does `f` to the attributes. -/
def FromFile (lib : Yaml) (F : Form σ) (id : Nat) (s : ClassRun.State σ) (v : Nat) (b : Bool) (f : σ → σ) : Prop :=
  ∃ (fs : Files lib) (nodeId : Str) (node fresh : Classes) (c c' : ClassState), NodeOk node ∧ Fresh fresh ∧ id ∈ Dict.keys fresh ∧
    Dict.get? node id = some c ∧ c.version = s.dec.version ∧ c.interviewed = s.dec.interviewed ∧ F.Saves s.attrs c.attrs ∧
    Dict.get? (nodeAdded lib (nodeUpdated lib fs nodeId node) nodeId fresh).1 id = some c' ∧ c'.version = v ∧ c'.interviewed = b ∧ F.Loads c'.attrs f

/-- Runs with a command class `c` with number `id` of the end point `ep` of node `root`, the latest one first. Nothing is known at first, and for everything that is loaded the class was
in a state before for which `R` holds. -/
inductive Runs (R : ClassRun.State σ → Nat → Bool → (σ → σ) → Prop) (root ep id : Nat) (c : Cls σ) (a : σ) : List (Life σ) → Prop
  | nil : Runs R root ep id c a []
  | cons (h : Life σ) (l : List (Life σ)) : Runs R root ep id c a l → h.nd.root = root → h.nd.ep = ep → h.id = id → h.c = c → h.attrs = a → (∀ f, .others f ∉ h.ops) →
      (∀ x v b f y, h.ops = x ++ .load v b f :: y → ∃ s, R s v b f ∧ ((∃ h' ∈ l, Was h' s) ∨ ∃ p, p <+: x ∧ s = at_ h p)) →
      Runs R root ep id c a (h :: l)

/-- Version, ManufacturerSpecific and ZwavePlusInfo: numbers by name. -/
def numbers : Form (Dict String Int) where
  Saves d a := ∀ n x, Dict.get? a n = some (.leaf (.num x)) → d.get? n = some x
  Loads a f := ∀ d n x, Dict.get? (f d) n = some x → d.get? n = some x ∨ Dict.get? a n = some (.leaf (.num x))

/-- SensorMultilevel: numbers by numbers. -/
def types : Form Classes.Sensor.State where
  Saves d a := ∀ m, Dict.get? a "supportedTypes" = some (.nums m) → ∀ t mask, m.get? t = some mask → d.types.get? t = some mask
  Loads a f := ∀ d t mask, (f d).types.get? t = some mask → d.types.get? t = some mask ∨ ∃ m, Dict.get? a "supportedTypes" = some (.nums m) ∧ m.get? t = some mask

end Spec.Restarts
