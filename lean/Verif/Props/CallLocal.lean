import Verif.Dialog.FirstHost
import Verif.Props.Call
import Verif.Props.Demo
import Verif.Dialog.Local

/-!
# Property C65: requests say truly where answers are to be sent
-/

namespace Gosip.Props
open Sip Spec Dialog

/-- **C65** (ports). Every request of a dialog goes to the remote address of a socket that was opened, its first Via
names the local port of that socket, and its Contact names the same port, or that of the socket for messages from
everywhere if the program was told to have one. -/
theorem C65_ports (w : World) (invite : Msg) (evs : List Event) (hi : IsInvite invite) :
    ∀ x ∈ requests (dialog w invite evs).s.outs, ∃ c, Socket w c ∧ x.1 = c.remote ∧ ViaNames c x.2 ∧
      ContactNames w c x.2 := by
  intro x hx
  rw [requests_eq] at hx
  obtain ⟨c, h1, h2, h3, _⟩ := tied_dialog w invite evs (isOwn_invite hi) x hx
  exact ⟨c, h1, h2, h3.via, h3.contact⟩

/-- **C65** (session description). The body of every INVITE is the one given to `NewDialog`; a session description gets
the addresses and the identifier it lacks, from sockets of the dialog, and is complete when it is sent. -/
theorem C65_description (w : World) (invite : Msg) (evs : List Event) (hi : IsInvite invite) :
    ∀ x ∈ requests (dialog w invite evs).s.outs, x.2.method = b!"INVITE" →
      BodyGiven w invite.payload x.2.payload ∧
      (Speaks w → ∀ d, x.2.payload = some (.sdp d) → SdpComplete d) := by
  intro x hx hm
  rw [requests_eq] at hx
  obtain ⟨c, _, _, h3, h4⟩ := tied_dialog w invite evs (isOwn_invite hi) x hx
  exact ⟨h4.body hm, fun hw => h3.sdp hw hm⟩

/-- **C65** (hosts; missing: that the host is the one of the socket used, which is false, see `C65_failover_host`). The
host in Via and in Contact is the one given to `NewDialog`, or the local address of a socket of the dialog. -/
theorem C65_hosts_partial (w : World) (invite : Msg) (evs : List Event) (hi : IsInvite invite) :
    ∀ x ∈ requests (dialog w invite evs).s.outs,
      (∃ h, viaHost x.2 = some h ∧ (viaHost invite = some h ∨ LocalHost w h)) ∧
      (∃ h, contactHost x.2 = some h ∧ (contactHost invite = some h ∨ LocalHost w h)) := by
  intro x hx
  rw [requests_eq] at hx
  obtain ⟨c, _, _, h3, h4⟩ := tied_dialog w invite evs (isOwn_invite hi) x hx
  obtain ⟨v, l, hv, _⟩ := h3.via
  obtain ⟨a, k, u, ha, hu, _⟩ := h3.contact
  have e1 : viaHost x.2 = some v.host := by simp [viaHost, hv]
  have e2 : contactHost x.2 = some u.host := by simp [contactHost, ha, hu]
  exact ⟨⟨_, e1, h4.via _ e1⟩, ⟨_, e2, contactGiven_host h4.contact _ e2⟩⟩

/-- **C65** (Contact). Apart from the port and the transport, the Contact of a request is the one given to `NewDialog`, or
it is a SIP address made of nothing but the local address of a socket of the dialog and `transport=udp`. -/
theorem C65_contact (w : World) (invite : Msg) (evs : List Event) (hi : IsInvite invite) :
    ∀ x ∈ requests (dialog w invite evs).s.outs, ContactGiven w (invite.addrs .contact) (x.2.addrs .contact) := by
  intro x hx
  rw [requests_eq] at hx
  obtain ⟨c, _, _, _, h4⟩ := tied_dialog w invite evs (isOwn_invite hi) x hx
  exact h4.contact

/-- **C65** for a machine with one address: if the application names none, every request names it. -/
theorem C65_one_address (w : World) (invite : Msg) (evs : List Event) (hi : IsInvite invite) (host : Bytes)
    (h1 : ∀ c, Socket w c → c.lhost = host) (hv : invite.via = []) (hc : invite.addrs .contact = []) :
    ∀ x ∈ requests (dialog w invite evs).s.outs, viaHost x.2 = some host ∧ contactHost x.2 = some host := by
  intro x hx
  obtain ⟨⟨a, ha, ha'⟩, b, hb, hb'⟩ := C65_hosts_partial w invite evs hi x hx
  rw [ha, hb]
  constructor
  · rcases ha' with h | ⟨c, h, k⟩
    · simp [viaHost, hv] at h
    · rw [← k, h1 c h]
  · rcases hb' with h | ⟨c, h, k⟩
    · simp [contactHost, hc] at h
    · rw [← k, h1 c h]

/-- **C65** (why it is false for hosts). All INVITEs of a call, whichever server they are sent to and through whichever
interface, name the same host in Via and in Contact and carry the same body: what was filled in for the first server is
never revised. (Only the ports follow the socket, `C65_ports`.) -/
theorem C65_first_interface (w : World) (invite : Msg) (evs : List Event) (hi : IsInvite invite) :
    ∀ x ∈ invites (dialog w invite evs).s.outs, ∀ y ∈ invites (dialog w invite evs).s.outs,
      viaHost x.2 = viaHost y.2 ∧ contactHost x.2 = contactHost y.2 ∧ (Speaks w → x.2.payload = y.2.payload) := by
  have hr := (repeating_loop w invite evs (isOwn_invite hi) hi.2).sent
  have hd := C65_description w invite evs hi
  have e : calls (loop w evs (start w invite)).s.outs = invites (dialog w invite evs).s.outs := by
    unfold calls invites; rw [requests_dialog]
  have hf : Speaks w → ∀ x ∈ invites (dialog w invite evs).s.outs, Full x.2 := by
    intro hw x hx d hxd
    obtain ⟨h1, h2⟩ := List.mem_filter.1 hx
    exact (hd x h1 (by simpa using h2)).2 hw d hxd
  have hr : (invites (dialog w invite evs).s.outs).Pairwise fun a b => Repeats a.2 b.2 := by
    rw [← e]; exact hr
  intro x hx y hy
  obtain ⟨i, hi, rfl⟩ := List.getElem_of_mem hx
  obtain ⟨j, hj, rfl⟩ := List.getElem_of_mem hy
  rcases Nat.lt_trichotomy i j with h | rfl | h
  · have k := List.pairwise_iff_getElem.1 hr i j hi hj h
    exact ⟨k.via.symm, k.contact.symm, fun hw => (k.body (hf hw _ hx)).symm⟩
  · exact ⟨rfl, rfl, fun _ => rfl⟩
  · have k := List.pairwise_iff_getElem.1 hr j i hj hi h
    exact ⟨k.via, k.contact, fun hw => k.body (hf hw _ hy)⟩

/-- **C65 is false** for hosts: a call that turns to a server reached through another network interface still names the
first interface in Via, Contact and session description, with the port of the new socket. -/
theorem C65_failover_host :
    (requests (dialog twoHomes twoHomesInvite [.requestTimer]).s.outs).map (fun x =>
      (x.1, sentBy x.2, contactHost x.2, bodyAddr x.2)) =
    [(b!"10.0.0.2:5060", some (b!"10.0.0.1", 5070), some b!"10.0.0.1", b!"10.0.0.1"),
     (b!"172.16.0.2:5060", some (b!"10.0.0.1", 5080), some b!"10.0.0.1", b!"10.0.0.1")] := by
  decide +kernel

/-- The theorems apply to that call: two requests are sent, and all conditions hold. -/
example : IsInvite twoHomesInvite ∧ (requests (dialog twoHomes twoHomesInvite [.requestTimer]).s.outs).length = 2 ∧
    Speaks twoHomes := by
  refine ⟨⟨rfl, rfl⟩, by decide +kernel, ?_, fun n => by simp [twoHomes, demoWorld]⟩
  rintro c ⟨n, a, h⟩
  simp only [twoHomes, Option.some.injEq] at h
  rw [← h]
  split <;> simp

/-- An INVITE with a Contact. -/
def withContact (u : URI) : Msg := { demoInvite with addrs := setAt demoInvite.addrs .contact [{ uri := some u }] }

/-- A Contact given by the application keeps all but its port; without one it is made. -/
example :
    (requests (dialog demoWorld (withContact { scheme := b!"sip", user := b!"bob", host := b!"h", param := [(b!"ob", [])] })
      []).s.outs).map (fun x => (x.2.addrs .contact).map Addr.text) =
      [[b!"<sip:bob@h:5070;ob;transport=udp>"]] ∧
    (requests (dialog demoWorld demoInvite []).s.outs).map (fun x => (x.2.addrs .contact).map Addr.text) =
      [[b!"<sip:10.0.0.1:5070;transport=udp>"]] := by decide +kernel

/-- With loose signalling, Contact names the other socket. -/
example : let w := { demoWorld with loose := true, listen := fun _ => some 6000 }
    (requests (dialog w demoInvite []).s.outs).map (fun x =>
      (sentBy x.2, ((x.2.addrs .contact).head?.bind (·.uri)).map (·.port))) =
    [(some (b!"10.0.0.1", 5070), some 6000)] := by decide +kernel

end Gosip.Props
