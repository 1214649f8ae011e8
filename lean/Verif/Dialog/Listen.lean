import Verif.Dialog.Receive

/-!
# Opening a transport

`NewTransport` of `dialog/transport.go`.
-/

namespace Gosip.Dialog
open Sip

/-- `NewTransport` (`dialog/transport.go:46-76`). `listen` is `net.ListenPacket("udp", …)` followed by `LocalAddr`. The
channels and the receiving goroutine are not part of the result here: see `receiveOne` and `Verif.Dialog.Handshake`. A nil
contact or one without a URI panics. -/
def newTransport (listen : Bytes → Except Nat UDPAddr) (contact : List Addr) : Res Err Transport :=
  match contact with
  | [] => .panic
  | a :: _ =>
    match a.uri with
    | none => .panic
    | some u =>
      match listen (joinHostPort u.host (portstr u.port)) with
      | .error e => .err (.net e)
      | .ok addr =>
        .ok { via := [{ host := addr.ip, port := addr.port }],
              contact := [{ addrCopy1 a with
                uri := some { u with port := addr.port, param := (b!"transport", b!"udp") :: u.param } }] }

end Gosip.Dialog
