import Verif.Model.Gateway
/-!
# `MailboxService.initialize`

mailbox.py:81-88: the message is built and handed to `send()` of the adapter, whose result is returned. The adapter is a Z/IP connection
(the gateway is one, zipgateway.py:21). The call is identified with its send.
-/
namespace Model.MailboxInit
open Spec (Bytes)

/-- mailbox.py:83-87: the message. `Mode.ENABLE_MAILBOX_PROXY_FORWARDING` is 2 (Mailbox.py:35). -/
def configurationSet (address : Bytes) (port : Int) : Py Msg :=
  construct Reg.Mailbox.ConfigurationSet
    (Gateway.kw1 "mode" (.num .pyint 2) <| Gateway.kw1 "forwardingDestinationIPv6Address" (.bytes address) <| Gateway.kw1 "udpPortNumber" (.num .pyint port) fun _ => none)

/-- mailbox.py:88: `self._adapter.send(msg)` up to the first suspension, unless building the message raised. -/
def start (c : Conn.State) (address : Bytes) (port : Int) : Py Conn.State := do
  let msg ← configurationSet address port
  pure (Conn.send c msg 0 0 3)

end Model.MailboxInit
