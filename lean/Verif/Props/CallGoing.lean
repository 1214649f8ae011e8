import Verif.Props.Call
import Verif.Props.Demo
import Verif.Dialog.Budget

/-!
# Property C69: the requests of a call go where they are meant to go; C50, continued
-/

namespace Gosip.Props
open Sip Spec Dialog

/-- **C69.** Every request a dialog sends, first transmissions and repetitions alike, is the INVITE given by the
application, the same INVITE redirected, or the BYE of the call. It carries the request URI and the route set that routing
its target along its route set gives, and it is sent to an address found for the next hop. -/
theorem C69_destination (w : World) (invite : Msg) (evs : List Event) (hi : IsInvite invite) :
    ∀ x ∈ requests (dialog w invite evs).s.outs, SentRight w invite (fun m => .msg m ∈ evs) x.1 x.2 := by
  intro x hx
  rw [requests_eq] at hx
  exact headed_dialog w invite evs hi.2 (isOwn_invite hi) x hx

/-- **C69** for a call without a route set that is not redirected: every INVITE is addressed to the target given by the
application and sent to an address found for its host. -/
theorem C69_invite_direct (w : World) (invite : Msg) (evs : List Event) (u : URI) (hi : IsInvite invite)
    (hu : invite.request = some u) (hr : invite.addrs .route = [])
    (hm : ∀ m, .msg m ∈ evs → m.status ≠ 301 ∧ m.status ≠ 302) :
    ∀ x ∈ requests (dialog w invite evs).s.outs, x.2.method = b!"INVITE" →
      x.2.request = some u ∧ x.2.addrs .route = [] ∧
      ∃ n addrs a c, (routeAddress (w.resolver n) u.host u.port true).2 = .ok addrs ∧ a ∈ addrs ∧ Reaches w a c ∧
        x.1 = c.remote := by
  intro x hx hxi
  obtain ⟨addrs, a, c, ⟨srv, target, route, host, port, n, hk, hn, ha⟩, h1, h2, h3⟩ := C69_destination w invite evs hi x hx
  generalize x.2.method = me at hk hxi
  cases hk with
  | first =>
    rw [hr] at hn
    generalize x.2.request = q at hn
    generalize x.2.addrs .route = rt at hn
    cases hn with
    | direct he =>
      have he : invite.request = _ := he
      rw [hu] at he
      cases he
      exact ⟨rfl, rfl, n, addrs, a, c, ha, h1, h2, h3⟩
  | moved srv hs hst _ =>
    obtain ⟨e1, e2⟩ := hm _ hs
    rcases hst with h | h
    · exact absurd h e1
    · exact absurd h e2
  | bye => exact absurd hxi (by decide +kernel)

/-- A call through a loose and one through a strict router: both go to the router; the strict one becomes the request
URI, and the target the last of the route set. -/
example :
    (requests (dialog demoWorld (demoInviteVia true) []).s.outs).map (fun x => (x.1, x.2.request.map (·.host),
      (x.2.addrs .route).map fun a => a.uri.map (·.host))) =
      [(b!"10.0.0.8:5060", some b!"10.0.0.2", [some b!"10.0.0.8"])] ∧
    (requests (dialog demoWorld (demoInviteVia false) []).s.outs).map (fun x => (x.1, x.2.request.map (·.host),
      (x.2.addrs .route).map fun a => a.uri.map (·.host))) =
      [(b!"10.0.0.8:5060", some b!"10.0.0.8", [some b!"10.0.0.2"])] := by
  decide +kernel

/-- The BYE goes through the proxy to the Contact of the other side. -/
example : (requests (demo [.msg demoRecorded, .hangup]).s.outs).map (fun x => (x.1, x.2.method, x.2.request.map (·.port),
      (x.2.addrs .route).map fun a => a.uri.map (·.host))) =
    [(b!"10.0.0.2:5060", b!"INVITE", some 0, []), (b!"10.0.0.8:5060", b!"BYE", some 5062, [some b!"10.0.0.8"])] := by
  decide +kernel

/-- **C69**: the route of a call is not kept. RFC 3261 (section 12.2) fixes the route set when the dialog is established; a
later INVITE of the other side changes only the target. Here that INVITE replaces the route set too: one without
Record-Route makes the BYE bypass the proxy that must see it. -/
theorem C69_route_forgotten :
    (requests (demo [.msg demoRecorded, demoReq b!"INVITE" 1, .hangup]).s.outs).map
      (fun x => (x.1, x.2.method, (x.2.addrs .route).length)) =
    [(b!"10.0.0.2:5060", b!"INVITE", 0), (b!"10.0.0.2:5062", b!"BYE", 0)] := by
  decide +kernel

/-- **C50** (at most so many). Whatever happens, a dialog sends at most `maxResends + 1` responses for every message it
gets: nobody can make it send without end. -/
theorem C50_responses_bounded (w : World) (invite : Msg) (evs : List Event) (hi : IsInvite invite) :
    ((sends (dialog w invite evs).s.outs).filter fun x => decide (0 < x.2.status)).length ≤
      (evs.filter fun e => match e with | .msg _ => true | _ => false).length * (w.maxResends.toNat + 1) := by
  have h := spends_dialog w invite evs (isOwn_not_response (isOwn_invite hi))
  unfold rsps msgs at h
  rw [List.countP_eq_length_filter, List.countP_eq_length_filter] at h
  have e : (fun e : Event => match e with | .msg _ => true | _ => false) = isMsg := by
    funext e; cases e <;> rfl
  rw [e]
  exact h

/-- The bound is reached. -/
example : ((sends (demo ([demoReq b!"INVITE" 1] ++ List.replicate 9 .responseTimer)).s.outs).filter
    fun x => decide (0 < x.2.status)).length = 3 := by
  decide +kernel

end Gosip.Props
