import Verif.Props.CallReport
import Verif.Dialog.Peers

/-!
# Property C63: the media addresses reported to the application
-/

namespace Gosip.Props
open Sip Spec Dialog

theorem peers_start (w : World) (invite : Msg) : peers (start w invite).s.outs = [] :=
  mute_sendInvite w { invite := invite }

theorem peers_dialog (w : World) (invite : Msg) (evs : List Event) :
    peers (dialog w invite evs).s.outs = peers (loop w evs (start w invite)).s.outs ∧
    requests (dialog w invite evs).s.outs = requests (loop w evs (start w invite)).s.outs := by
  unfold dialog
  dsimp only
  split
  · rcases cleanup_cases w (loop w evs (start w invite)).s with ⟨_, h⟩ | ⟨_, h⟩
    · rw [h]; exact ⟨rfl, rfl⟩
    · rw [h, peers_append, requests_eq, requests_eq, own_append]
      simp [peers, own, sends]
  · exact ⟨rfl, rfl⟩

theorem peers_loop (w : World) (invite : Msg) (hi : IsInvite invite) (hid : ∀ n, (w.ids n).callID ≠ [])
    (callID : Bytes) (evs pre : List Event)
    (hcall : ∀ x ∈ requests (loop w (pre ++ evs) (start w invite)).s.outs, x.2.callID = callID) :
    (peers (loop w (pre ++ evs) (start w invite)).s.outs).Sublist
      (peers (loop w pre (start w invite)).s.outs ++ evs.flatMap (offered callID)) := by
  induction evs generalizing pre with
  | nil => simp
  | cons e evs ih =>
    have hpre : pre ++ e :: evs = (pre ++ [e]) ++ evs := by simp
    rw [hpre] at hcall ⊢
    refine (ih _ hcall).trans ?_
    rw [List.flatMap_cons, ← List.append_assoc]
    refine List.Sublist.append ?_ (List.Sublist.refl _)
    rw [loop_snoc]
    cases hg : (loop w pre (start w invite)).c with
    | go =>
      rw [Run.andThen_of_go hg]
      have hal := alive_dialog hi hid hg
      obtain ⟨pre', d, x, cur, h1, h2, h3⟩ := hal.last
      obtain ⟨l, hl⟩ : Grows (loop w pre (start w invite)).s (loop w (pre ++ [e] ++ evs) (start w invite)).s := by
        rw [List.append_assoc, loop_append]; exact grows_loop w _ _
      have hx : (d, x) ∈ requests (loop w (pre ++ [e] ++ evs) (start w invite)).s.outs := by
        rw [hl, requests_eq, own_append, h1]; simp
      have hc : cur.callID = callID := by rw [h3.callID]; exact hcall _ hx
      rcases adds_step w (loop w pre (start w invite)).s e h2 with h | h
      · rw [show peers _ = _ from h]
        exact List.sublist_append_left _ _
      · rw [h, hc]
        exact List.Sublist.refl _
    | _ =>
      unfold Run.andThen
      rw [hg]
      exact List.sublist_append_left _ _

/-- **C63** (nothing else). The media addresses an application is told, in order, are among those offered to its call,
in order: each comes from a response that is no refusal or from an INVITE, with the Call-ID of the call, and is told at
most once. -/
theorem C63_offered (w : World) (invite : Msg) (evs : List Event) (hi : IsInvite invite)
    (hid : ∀ n, (w.ids n).callID ≠ []) (callID : Bytes)
    (hcall : ∀ x ∈ requests (dialog w invite evs).s.outs, x.2.callID = callID) :
    (peers (dialog w invite evs).s.outs).Sublist (evs.flatMap (offered callID)) := by
  obtain ⟨h1, h2⟩ := peers_dialog w invite evs
  rw [h1]
  rw [h2] at hcall
  have h := peers_loop w invite hi hid callID evs [] hcall
  rw [List.nil_append, show loop w [] (start w invite) = start w invite from rfl, peers_start] at h
  exact h

/-- **C63** (offers). A re-INVITE in order is reported with its media address, before it is answered 200; the call goes
on. (Responses are reported according to `C62_provisional`, `C62_answered_partial` and `C62_answered_again`.) -/
theorem C63_reinvite (w : World) (invite : Msg) (evs : List Event) (m : Msg) (callID : Bytes)
    (hi : IsInvite invite) (hid : ∀ n, (w.ids n).callID ≠ []) (hw : ∀ n, w.write n = .ok ())
    (hg : (loop w evs (start w invite)).c = .go)
    (hcall : ∃ x ∈ requests (loop w evs (start w invite)).s.outs, x.2.callID = callID)
    (hm : m.method = b!"INVITE") (ho : Proper callID m) (hnew : Newest callID evs m)
    (haudio : ∀ d, m.payload = some (.sdp d) → d.audio ≠ none)
    (hv : m.via ≠ [] ∨ ∀ n, w.clock n = none) :
    (loop w (evs ++ [.msg m]) (start w invite)).c = .go ∧
    ∃ r0 r dest text, Echoes m 200 r0 ∧ Stamped r0 r ∧ (loop w (evs ++ [.msg m]) (start w invite)).s.outs =
      (loop w evs (start w invite)).s.outs ++ mediaNews m ++ [.sent dest r text] := by
  have hal := alive_dialog hi hid hg
  obtain ⟨c, hs⟩ := hal.sock
  obtain ⟨cur, hc, hcid⟩ := callID_cur hal hcall
  rw [loop_snoc, (Run.andThen_of_go hg)]
  obtain ⟨r, t, h1, h2, h3⟩ := reinvite_eq (w := w) hw hs hc ho.request ho.version
    (ho.call.trans hcid.symm) ho.forwards (seq_newest hi hid hg hcall hnew) hm haudio hv
  exact ⟨h2, _, r, c.remote, t, C34_response_echoes m 200, h1, h3⟩

/-- A call with an answer, an offer, an offer of another call and an offer out of order: two addresses are reported. -/
example : let evs := [.msg { demoRspMsg [] 200 with payload := some (.sdp demoSdp) }, .msg (demoOffer 4000 5),
      .msg { demoOffer 4001 6 with callID := b!"other" }, .msg (demoOffer 4002 4)]
    peers (dialog demoWorld demoInvite evs).s.outs = (mediaOf { payload := some (.sdp demoSdp) }) ++ [(b!"10.0.0.9", 4000)] ∧
    (evs.flatMap (offered b!"id")).length = 3 ∧
    (∀ x ∈ requests (dialog demoWorld demoInvite evs).s.outs, x.2.callID = b!"id") ∧
    mediaOf { payload := some (.sdp demoSdp) } ≠ [] := by
  decide +kernel

end Gosip.Props
