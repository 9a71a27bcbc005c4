import Verif.Model.Mailbox
/-!
# What the mailbox has been observed to do

Used to state C69-C76. Only the observable trace is read: the messages sent and the results of the handlers.
-/
namespace Spec.Mailbox
open Spec (Bytes)
open Model Model.Classes Model.Mailbox

/-- The message pushes `x` to queue `h`. -/
def IsPush (m : Msg) (h : Int) (x : Bytes) : Prop :=
  m.hid = Reg.Mailbox.Queue.hid ∧ numAttr m "operation" = some 0 ∧ numAttr m "queueHandle" = some h ∧ entryOf m = x

instance (m : Msg) (h : Int) (x : Bytes) : Decidable (IsPush m h x) := inferInstanceAs (Decidable (_ ∧ _))

/-- The message is a wakeup notification for queue `h`. -/
def IsWakeup (m : Msg) (h : Int) : Prop := m.hid = Reg.Mailbox.WakeupNotification.hid ∧ numAttr m "queueHandle" = some h

/-- The message acknowledges an entry; `h` is the handle it names. -/
def IsAck (m : Msg) (h : Int) : Prop :=
  m.hid = Reg.Mailbox.Queue.hid ∧ numAttr m "operation" = some 4 ∧ numAttr m "queueHandle" = some h

instance (m : Msg) (h : Int) : Decidable (IsAck m h) := inferInstanceAs (Decidable (_ ∧ _))

/-- The event is the acceptance of an entry of queue `h`: the handler of a push ends with True. -/
def accepted (h : Int) : Ev → Option Bytes
  | .ended _ m (.ok (some true)) => if IsPush m h (entryOf m) then some (entryOf m) else none
  | _ => none

/-- The event hands out an entry of queue `h`: a POP with an entry is sent. -/
def handed (h : Int) : Ev → Option Bytes
  | .sent _ o => if o.operation = .pop ∧ o.handle = h then o.entry else none
  | _ => none

/-- The entries of a queue in the order of their acceptance when the latest one is always handed out first. -/
def availStep (h : Int) (st : List Bytes) (e : Ev) : List Bytes :=
  match accepted h e with
  | some x => st ++ [x]
  | none => if (handed h e).isSome then st.dropLast else st

/-- The entries of queue `h` that are available after the events. -/
def available (h : Int) (log : List Ev) : List Bytes := log.foldl (availStep h) []

/-- Pushes to a queue do not overlap: while a push to it is being handled, no other is received. -/
def NoOverlap (ops : List Op) (h : Int) : Prop :=
  ∀ pre node m x post, ops = pre ++ Op.received node m :: post → IsPush m h x →
    ∀ c ∈ (run fresh pre).calls, IsPush c.msg h (entryOf c.msg) → c.pc = .done

/-- The messages sent by heartbeat task `j`. -/
def beatOuts (j : Nat) (log : List Ev) : List Out := log.filterMap fun e =>
  match e with
  | .sent (.beat k) o => if k = j then some o else none
  | _ => none

end Spec.Mailbox
