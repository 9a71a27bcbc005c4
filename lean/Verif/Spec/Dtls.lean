import Verif.Model.Dtls
/-!
# What a history of a DTLS connection means

Only the events are looked at, and whether the thread is reading from its socket.
-/
namespace Spec.Dtls
open Model.Dtls

variable {A : Type}

/-- The thread reads from its socket; as a server it learns the senders. -/
def reading (s : State A) : Option Bool :=
  match s.pc with
  | .reading server => some server
  | _ => none

/-- The callback that was given to `onMessage()` last. -/
def callback (ops : List (Op A)) : Option Nat := ops.reverse.findSome? fun | .onMessage cb => some cb | _ => none

/-- What has to be handed to callbacks in a history: every datagram that was read, to the callback of that moment. -/
def deliveries (ops : List (Op A)) : List (Nat × Bytes × Option A) :=
  (List.range ops.length).filterMap fun (p : Nat) =>
    match (ops[p]? : Option (Op A)) with
    | some (.packet data sender) =>
      match reading (run init (ops.take p)), callback (ops.take p) with
      | some server, some cb => some (cb, data, if server then some sender else none)
      | _, _ => none
    | _ => none

/-- The deliveries that the event loop still has to make. -/
def pending : List (Item A) → List (Nat × Bytes × Option A)
  | [] => []
  | .setEvent :: q => pending q
  | .deliver cb data sender :: q => (cb, data, sender) :: pending q

end Spec.Dtls
