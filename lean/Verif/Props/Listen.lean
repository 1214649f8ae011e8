import Verif.Dialog.Listen
import Verif.Props.Wire

/-!
# Property C72: a transport names its own socket
-/

namespace Gosip.Props
open Sip Spec Dialog

/-- **C72.** A transport is opened at the address its Contact names, and names the address it got: the port of the Contact
and host and port of the Via are those of the socket, the rest of the Contact is as given (but for the display name, see
C44, and other addresses in the list), marked as UDP. -/
theorem C72_names_socket (listen : Bytes → Except Nat UDPAddr) (a : Addr) (l : List Addr) (u : URI)
    (hu : a.uri = some u) :
    (∀ addr, listen (joinHostPort u.host (natDec u.port.toNat)) = .ok addr →
      ∃ tp, newTransport listen (a :: l) = .ok tp ∧ tp.via = [{ host := addr.ip, port := addr.port }] ∧
        tp.contact = [{ uri := some { u with port := addr.port, param := (b!"transport", b!"udp") :: u.param }, param := a.param }]) ∧
    (∀ e, listen (joinHostPort u.host (natDec u.port.toNat)) = .error e → newTransport listen (a :: l) = .err (.net e)) := by
  constructor
  · intro addr h
    refine ⟨⟨[{ host := addr.ip, port := addr.port }], [{ uri := some { u with port := addr.port, param := (b!"transport", b!"udp") :: u.param }, param := a.param }]⟩, ?_, rfl, rfl⟩
    unfold newTransport
    simp only [hu, portstr_nat, h, addrCopy1]
  · intro e h
    unfold newTransport
    simp only [hu, portstr_nat, h]

/-- **C72.** A response to a request that has the Via of a new transport is sent to its socket; a message that has its
Contact as the first route is delivered without that route, provided that the Contact was given by address. -/
theorem C72_comes_back (listen : Bytes → Except Nat UDPAddr) (a : Addr) (l : List Addr) (u : URI) (tp : Transport)
    (addr : UDPAddr) (hu : a.uri = some u) (hl : listen (joinHostPort u.host (natDec u.port.toNat)) = .ok addr)
    (hp : addr.port ≠ 0) (h : newTransport listen (a :: l) = .ok tp) :
    (∃ v, tp.via = [v] ∧ ∀ h p, ResponseHop v h p ↔ h = addr.ip ∧ p = addr.port) ∧
    (u.host = addr.ip → ∀ rest, RouteHere addr.ip addr.port (tp.contact ++ rest) rest) := by
  obtain ⟨tp', h', e1, e2⟩ := (C72_names_socket listen a l u hu).1 addr hl
  rw [h] at h'
  cases h'
  constructor
  · refine ⟨_, e1, fun h p => ?_⟩
    have hn : ∀ n, NoParam ([] : Pairs) n := fun n q hq => by cases hq
    constructor
    · intro hh
      have : ResponseHop { host := addr.ip, port := addr.port } addr.ip addr.port :=
        ⟨.inr ⟨hn _, rfl⟩, .inr ⟨.inl (hn _), rfl⟩⟩
      exact C38_hop_unique hh this
    · rintro ⟨rfl, rfl⟩
      exact ⟨.inr ⟨hn _, rfl⟩, .inr ⟨.inl (hn _), rfl⟩⟩
  · intro hh rest
    rw [e2]
    exact .inl ⟨_, { u with port := addr.port, param := (b!"transport", b!"udp") :: u.param }, rfl, ⟨hh, if_neg hp⟩, rfl⟩

/-- The system picks the port. -/
example : ∃ tp, newTransport (fun s => if s = b!"1.2.3.4:0" then .ok ⟨b!"1.2.3.4", 41000⟩ else .error 1)
      [{ uri := some { scheme := b!"sip", user := b!"bob", host := b!"1.2.3.4" } }] = .ok tp ∧
    tp.via.map Via.text = [b!"SIP/2.0/UDP 1.2.3.4:41000"] ∧
    tp.contact.map Addr.text = [b!"<sip:bob@1.2.3.4:41000;transport=udp>"] :=
  ⟨_, rfl, by decide +kernel, by decide +kernel⟩

end Gosip.Props
