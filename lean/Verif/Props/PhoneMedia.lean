import Verif.Fone.Formats
import Verif.Spec.Media
import Verif.Props.Phone

/-!
# Property C83: the phone sends media that both sides want
-/

namespace Gosip.Props
open Sip Spec Dialog Fone

/-- **C83** (own half). Whatever happens, every packet the phone sends is of a format that its INVITE lists. -/
theorem C83_own_formats (rw' : Rtp.Writes) (ssrc : UInt32) (ins : List Input) (request : URI) (publicIP user : Bytes)
    (rtpPort : UInt16) (origin : Bytes) :
    ∃ d, (Fone.invite request publicIP user rtpPort origin).payload = some (.sdp d) ∧
      ∀ y ∈ (phone rw' ssrc ins).sent, ptOf y.1 ∈ formats d := by
  refine ⟨_, rfl, fun y hy => ?_⟩
  have hm : y.1 ∈ (phone rw' ssrc ins).sess.log.map Prod.fst := by
    rw [← (sound rw' ssrc ins).same]; exact List.mem_map.2 ⟨y, hy, rfl⟩
  obtain ⟨a, ha, e⟩ := List.mem_map.1 hm
  have := two_phone rw' ssrc ins a ha
  rw [e] at this
  show ptOf y.1 ∈ [0, 101]
  simpa using this

theorem offered_description {callID : Bytes} {ev : Event} {x : Bytes × UInt16} (h : x ∈ offered callID ev) :
    ∃ d ∈ descriptions callID ev, ∃ a, d.audio = some a ∧ x = (d.addr, a.port) := by
  cases ev with
  | msg m =>
    dsimp only [offered] at h
    split at h
    · rename_i hc
      unfold mediaOf at h
      split at h
      · rename_i d hd
        split at h
        · rename_i a ha
          refine ⟨d, ?_, a, ha, by simpa using h⟩
          unfold descriptions
          simp [hc.2.1, hd]
        · cases h
      · cases h
    · cases h
  | _ => cases h

/-- **C83** (missing: descriptions that do not list both formats of the phone, that reject the audio or ask not to be sent
any; see `C83_unheeded`). If every session description of the other side lists μ-law and telephone events, has an audio
port and is not marked `sendonly`, then every packet goes where one of them wants it, in a format that it lists. -/
theorem C83_wanted_partial (w : World) (invite : Msg) (evs : List Event) (hi : IsInvite invite)
    (hid : ∀ n, (w.ids n).callID ≠ []) (callID : Bytes)
    (hcall : ∀ x ∈ requests (dialog w invite evs).s.outs, x.2.callID = callID)
    (hd : ∀ d ∈ evs.flatMap (descriptions callID), 0 ∈ formats d ∧ 101 ∈ formats d ∧ d.sendOnly = false ∧
      ∀ a, d.audio = some a → a.port ≠ 0)
    (rw' : Rtp.Writes) (ssrc : UInt32) (ins : List Input) (h : Listens ins (dialog w invite evs).s.outs) :
    ∀ y ∈ (phone rw' ssrc ins).sent, ∃ d ∈ evs.flatMap (descriptions callID), ∃ to, y.2 = some to ∧ Wants d (ptOf y.1) to := by
  intro y hy
  obtain ⟨to, h1, h2⟩ := C80_offered w invite evs hi hid callID hcall rw' ssrc ins h y hy
  obtain ⟨ev, h3, h4⟩ := List.mem_flatMap.1 h1
  obtain ⟨d, h5, a, h6, h7⟩ := offered_description h4
  have h8 := List.mem_flatMap.2 ⟨ev, h3, h5⟩
  obtain ⟨k1, k2, k3, k4⟩ := hd d h8
  have hm : y.1 ∈ (phone rw' ssrc ins).sess.log.map Prod.fst := by
    rw [← (sound rw' ssrc ins).same]; exact List.mem_map.2 ⟨y, hy, rfl⟩
  obtain ⟨z, ha, e⟩ := List.mem_map.1 hm
  have hp := two_phone rw' ssrc ins z ha
  rw [e] at hp
  refine ⟨d, h8, to, h2, ?_, k3, a, h6, k4 a h6, h7⟩
  rcases hp with hp | hp <;> rw [hp] <;> assumption

theorem audible_append (a b : List Out) : audible (a ++ b) = audible a ++ audible b := by simp [audible]

/-- **C83 is false in every call**: whatever formats the answer lists, whether it rejects the audio with port 0 or asks not
to be sent any, the phone is told the address, and sends what the microphone gives there, as μ-law. -/
theorem C83_unheeded (w : World) (invite : Msg) (evs : List Event) (m : Msg) (d : Bytes) (x : Msg)
    (hi : IsInvite invite) (hid : ∀ n, (w.ids n).callID ≠ []) (hw : ∀ n, w.write n = .ok ())
    (hg : (loop w evs (start w invite)).c = .go)
    (hx : (requests (loop w evs (start w invite)).s.outs).getLast? = some (d, x)) (hxi : x.method = b!"INVITE")
    (hfirst : ∀ ev ∈ evs, ¬ Introduces ev)
    (hm : Answers x m) (hver : m.versionMajor = 2 ∧ m.versionMinor = 0) (hcall : m.callID = x.callID)
    (hst : m.status = 200) (hcon : m.addrs .contact ≠ [])
    (sd : Sdp.SDP) (a : Sdp.Media) (hpay : m.payload = some (.sdp sd)) (haud : sd.audio = some a)
    (rw' : Rtp.Writes) (ssrc : UInt32) (ins : List Input) (f : Rtp.Frame)
    (hh : heard ins = audible (loop w evs (start w invite)).s.outs) (hn : ∀ x ∈ ins, x ≠ .rtpErr ∧ x ≠ .noPeer)
    (hr : (phone rw' ssrc ins).status = .running) :
    heard (ins ++ [.peer sd.addr a.port, .state .answered]) = audible (loop w (evs ++ [.msg m]) (start w invite)).s.outs ∧
    ∃ pkt, ptOf pkt = 0 ∧
      (phone rw' ssrc (ins ++ [.peer sd.addr a.port, .state .answered, .tick (some f)])).sent =
        (phone rw' ssrc ins).sent ++ [(pkt, some (sd.addr, a.port))] := by
  obtain ⟨_, _, _, _, _, _, _, e⟩ := C62_answered_partial w invite evs m d x hi hid hw hg hx hxi hfirst hm hver hcall hst hcon
    (by intro d' hd'; rw [hpay] at hd'; cases hd'; rw [haud]; simp)
  have hmn : mediaNews m = [.peer sd.addr a.port] := by simp [mediaNews, mediaOf, hpay, haud]
  have hheard : heard (ins ++ [.peer sd.addr a.port, .state .answered]) =
      heard ins ++ [.peer sd.addr a.port, .state .answered] := by rw [heard_append]; rfl
  refine ⟨?_, ?_⟩
  · rw [e, hheard, hh, hmn, List.append_assoc, audible_append]; rfl
  · have hr2 : (phone rw' ssrc (ins ++ [.peer sd.addr a.port, .state .answered])).status = .running ∧
        (phone rw' ssrc (ins ++ [.peer sd.addr a.port, .state .answered])).sent = (phone rw' ssrc ins).sent := by
      rw [show ins ++ [.peer sd.addr a.port, .state .answered] = (ins ++ [.peer sd.addr a.port]) ++ [.state .answered] by simp]
      unfold phone at hr ⊢
      have k1 : (Phone.run rw' (ins ++ [.peer sd.addr a.port]) { sess := { hdr := { seq := 666, ts := 0, ssrc := ssrc }, peer := false } }) =
        Phone.step rw' (Phone.run rw' ins { sess := { hdr := { seq := 666, ts := 0, ssrc := ssrc }, peer := false } }) (.peer sd.addr a.port) := by
        rw [run_snoc, if_pos hr]
      rw [run_snoc, k1, if_pos (by exact hr)]
      exact ⟨hr, rfl⟩
    have hn2 : ∀ y ∈ ins ++ [.peer sd.addr a.port, .state .answered], y ≠ .rtpErr ∧ y ≠ .noPeer := by
      intro y hy
      rcases List.mem_append.1 hy with hy | hy
      · exact hn y hy
      · simp only [List.mem_cons, List.not_mem_nil, or_false] at hy
        rcases hy with rfl | rfl <;> simp
    have hlast : (peers (heard (ins ++ [.peer sd.addr a.port, .state .answered]))).getLast? = some (sd.addr, a.port) := by
      rw [hheard]; simp [peers]
    obtain ⟨h1, h2⟩ := steady rw' ssrc _ hn2 hr2.1
    have h3 := (sound rw' ssrc (ins ++ [.peer sd.addr a.port, .state .answered])).known
    rw [h2, hlast] at h3
    obtain ⟨pkt, e', -, -, -, -, hpt, -⟩ := C81_frame rw' _ f h1 h3
    refine ⟨pkt, hpt, ?_⟩
    rw [← hr2.2, show ins ++ [.peer sd.addr a.port, .state .answered, .tick (some f)] =
      (ins ++ [.peer sd.addr a.port, .state .answered]) ++ [.tick (some f)] by simp]
    have hrr := hr2.1
    unfold phone at hrr ⊢
    rw [run_snoc, if_pos hrr]
    change _ ++ (_ : List (Bytes × Bool)).map _ = _
    unfold phone at e' h2
    rw [e', List.drop_left, h2, hlast]
    rfl

/-- An answer that accepts GSM only, and asks not to be sent anything. -/
def gsmOnly : Sdp.SDP :=
  { addr := b!"10.0.0.9", sendOnly := true,
    audio := some { proto := b!"RTP/AVP", port := 4000, codecs := [{ pt := 3, name := b!"GSM", rate := 8000 }] } }

/-- An answer that accepts what the phone offers. -/
def bothFormats : Sdp.SDP :=
  { addr := b!"10.0.0.9",
    audio := some { proto := b!"RTP/AVP", port := 4000, codecs := [Sdp.ulawCodec, Sdp.dtmfCodec] } }

/-- **C83 is false**, seen in one call: the answer lists GSM only and asks for nothing, and the phone sends μ-law and
telephone events. -/
theorem C83_unwanted :
    audible (dialog demoWorld demoCall [.msg { demoRspMsg [] 200 with payload := some (.sdp gsmOnly) }]).s.outs =
      [.peer b!"10.0.0.9" 4000, .state .answered] ∧
    (phone (fun _ => true) 9 [.peer b!"10.0.0.9" 4000, .state .answered, .tick (some (.replicate 160 5)), .key 49]).sent.map
      (fun y => (ptOf y.1, y.2.map (·.2))) =
      [(0, some 4000), (101, some 4000), (101, some 4000), (101, some 4000), (101, some 4000), (101, some 4000),
        (101, some 4000), (101, some 4000)] ∧
    ¬ Wants gsmOnly 0 (b!"10.0.0.9", 4000) ∧ ¬ Wants gsmOnly 101 (b!"10.0.0.9", 4000) := by
  refine ⟨by decide +kernel, by decide +kernel, ?_, ?_⟩ <;> exact fun h => absurd h.2.1 (by decide)

/-- The hypotheses of `C83_wanted_partial` and of `C83_unheeded` can be met. -/
example : (∀ d ∈ [Event.msg { demoRspMsg [] 200 with payload := some (.sdp bothFormats) }].flatMap (descriptions b!"id"),
      0 ∈ formats d ∧ 101 ∈ formats d ∧ d.sendOnly = false ∧ d.audio.all (fun a => a.port != 0)) ∧
    ([Event.msg { demoRspMsg [] 200 with payload := some (.sdp bothFormats) }].flatMap (descriptions b!"id")).length = 1 ∧
    (requests (dialog demoWorld demoCall [.msg { demoRspMsg [] 200 with payload := some (.sdp bothFormats) }]).s.outs).map
      (·.2.callID) = [b!"id"] ∧
    audible (loop demoWorld [] (start demoWorld demoCall)).s.outs = [] ∧
    (requests (loop demoWorld [] (start demoWorld demoCall)).s.outs).map (·.2.method) = [b!"INVITE"] ∧
    (loop demoWorld [] (start demoWorld demoCall)).c = .go := by
  decide +kernel

end Gosip.Props
