import Verif.Model.Socket
/-!
# What a history of a connection means

Only the events are looked at, and which transports asyncio has open.
-/
namespace Spec.Socket
open Model.Socket

variable {A : Type}

/-- Transport `i` can send and receive. -/
def Live (s : State A) (i : Nat) : Prop := (s.socks[i]?).map (·.phase) = some .live

instance (s : State A) (i : Nat) : Decidable (Live s i) := by unfold Live; infer_instance

/-- The callback that was given to `onMessage()` last. -/
def callback (ops : List (Op A)) : Option Nat := ops.reverse.findSome? fun | .onMessage cb => some cb | _ => none

/-- `listen()` was called. -/
def listening (ops : List (Op A)) : Bool := ops.any fun | .listen => true | _ => false

/-- What has to be handed to callbacks in a history: every datagram that arrives on a live transport, to the callback of that moment, with the sender if `listen()` was called before;
in the order of arrival. -/
def deliveries (ops : List (Op A)) : List (Nat × Bytes × Option A) :=
  (List.range ops.length).filterMap fun (p : Nat) =>
    match (ops[p]? : Option (Op A)) with
    | some (.datagram i data sender) =>
      if Live (run init (ops.take p)) i then (callback (ops.take p)).map fun cb => (cb, data, if listening (ops.take p) then some sender else none) else none
    | _ => none

/-- A call of `connect()` or `listen()` goes on. -/
def Proceeds : Op A → Prop
  | .proceed _ => True
  | _ => False

/-- The calls that create transports, in order: `connect()` (true) and `listen()` (false). -/
def openings (ops : List (Op A)) : List Bool := ops.filterMap fun | .connect => some true | .listen => some false | _ => none

end Spec.Socket
