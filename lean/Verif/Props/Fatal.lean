import Verif.Props.CallReport
import Verif.Props.CallEnd
import Verif.Props.Transport
import Verif.Dialog.Fatal

/-!
# Property C78: which datagrams bring down a call
-/

namespace Gosip.Props
open Sip Spec Dialog

/-- What a receiver delivers has URIs in its addresses, and a Via if that is needed for time stamps. -/
theorem fromWire_ok {tagging : Bool} {m : Msg} (h : FromWire tagging m) :
    HasUris m ∧ (tagging = true → m.via ≠ []) := by
  obtain ⟨lhost, lport, ts, d, addr, htag, h⟩ := h
  unfold receiveOne at h
  cases hp : parseMsg (d.take 2048) with
  | panic => rw [hp] at h; cases h
  | err e => rw [hp] at h; cases h
  | ok p =>
    rw [hp] at h
    simp only [Res.bind_eq, Res.bind_ok_iff] at h
    obtain ⟨m1, h1, m2, h2, m3, h3, h4⟩ := h
    have hu : HasUris p := (C10_request_or_response_partial _ _ hp).2
    have u1 : m1.addrs = p.addrs := by
      unfold addReceived at h1
      split at h1
      · cases h1; rfl
      · split at h1
        · cases h1
        · cases h1; rfl
    have u2 : m2.addrs = m1.addrs ∧ (tagging = true → m2.via ≠ []) := by
      unfold addTimestamp at h2
      split at h2
      · cases h2
        exact ⟨rfl, fun k => absurd rfl (htag.2 k)⟩
      · split at h2
        · cases h2
        · cases h2; exact ⟨rfl, by simp⟩
    have hu2 : HasUris m2 := by
      intro f a ha
      rw [u2.1, u1] at ha
      exact hu f a ha
    have u3 : HasUris m3 ∧ m3.via = m2.via := by
      unfold popSelf at h3
      split at h3
      · cases h3; exact ⟨hu2, rfl⟩
      · rename_i a l hr
        simp only [Res.bind_eq, Res.bind_ok_iff] at h3
        obtain ⟨b, _, h3⟩ := h3
        cases h3
        split
        · refine ⟨?_, rfl⟩
          intro f x hx
          by_cases hf : f = .route
          · subst hf
            simp only [setAt, if_true] at hx
            exact hu2 .route x (by rw [hr]; exact List.mem_cons_of_mem _ hx)
          · simp only [setAt, if_neg hf] at hx
            exact hu2 f x hx
        · exact ⟨hu2, rfl⟩
    cases h4
    unfold fixStrict
    split
    · split
      · refine ⟨?_, fun k => u3.2 ▸ u2.2 k⟩
        intro f x hx
        by_cases hf : f = .route
        · subst hf
          simp only [setAt, if_true] at hx
          exact u3.1 .route x (List.dropLast_subset _ hx)
        · simp only [setAt, if_neg hf] at hx
          exact u3.1 f x hx
      · exact ⟨u3.1, fun k => u3.2 ▸ u2.2 k⟩
    · exact ⟨u3.1, fun k => u3.2 ▸ u2.2 k⟩

/-- **C78.** A dialog crashes only for an ICMP "port unreachable" or a fatal message: if none of these arrives, then no
datagrams whatsoever, sent by anybody, no timer, no failed write, dial or lookup and no time of hanging up crash it. In particular
nobody can who does not know the Call-ID. -/
theorem C78_only_fatal (w : World) (invite : Msg) (evs : List Event) (tagging : Bool) (hi : Placeable invite)
    (hid : ∀ n, (w.ids n).callID ≠ []) (hs : tagging = true ∨ ∀ n, w.clock n = none)
    (hw : ∀ m, .msg m ∈ evs → FromWire tagging m) (hr : ∀ e, .sockErr true e ∉ evs)
    (hf : ∀ pre m post d x, evs = pre ++ .msg m :: post →
      (requests (loop w pre (start w invite)).s.outs).getLast? = some (d, x) → ¬ Fatal x m) :
    (dialog w invite evs).c ≠ .crash := by
  have key : ∀ n, SafeRun w (loop w (evs.take n) (start w invite)) := by
    intro n
    induction n with
    | zero => exact safe_sendInvite ⟨by simp, by simp, by simp, by simp⟩ hi.routable
    | succ n ih =>
      by_cases hn : n < evs.length
      · rw [List.take_succ_eq_append_getElem hn, loop_snoc]
        have hsplit : evs = evs.take n ++ evs[n] :: evs.drop (n + 1) := by
          rw [List.getElem_cons_drop, List.take_append_drop]
        have hmem : evs[n] ∈ evs := List.getElem_mem hn
        cases hg : (loop w (evs.take n) (start w invite)).c with
        | go =>
          rw [Run.andThen_of_go hg]
          have hsafe := ih.2 hg
          have hal := alive_dialog hi.invite hid hg
          generalize hev : evs[n] = ev at hsplit hmem ⊢
          cases ev with
          | msg m =>
            obtain ⟨pre, d, x, cur, h1, h2, h3⟩ := hal.last
            have hx : (requests (loop w (evs.take n) (start w invite)).s.outs).getLast? = some (d, x) := by
              rw [requests_eq, h1]; simp
            obtain ⟨k1, k2⟩ := fromWire_ok (hw m hmem)
            have hv : CanStamp w m := by
              rcases hs with hs | hs
              · exact .inl (k2 hs)
              · exact .inr hs
            simp only [step]
            split
            · exact ⟨by simp, fun _ => hsafe⟩
            · exact safe_notFatal hsafe h2 (fun k => hf _ m _ d x hsplit hx (fatal_of_core h3 k)) k1 hv
          | sockErr b e =>
            refine safe_step hsafe ?_
            cases b with
            | true => exact absurd hmem (hr e)
            | false => exact rfl
          | csockErr e => exact safe_step hsafe trivial
          | requestTimer => exact safe_step hsafe trivial
          | responseTimer => exact safe_step hsafe trivial
          | hangup => exact safe_step hsafe trivial
        | stop => unfold Run.andThen; rw [hg]; exact ih
        | crash => exact absurd hg ih.1.1
        | stuck => unfold Run.andThen; rw [hg]; exact ih
      · rw [List.take_of_length_le (by omega)]
        rw [List.take_of_length_le (by omega)] at ih
        exact ih
  have h := key evs.length
  rw [List.take_length] at h
  unfold dialog
  dsimp only
  split
  · rcases cleanup_cases w (loop w evs (start w invite)).s with ⟨h, _⟩ | ⟨h, _⟩ <;> rw [h] <;> simp
  · exact h.1.1

/-- What crashes the loop crashes the dialog. -/
theorem dialog_crash {w : World} {invite : Msg} {evs : List Event} (more : List Event)
    (h : (loop w evs (start w invite)).c = .crash) : (dialog w invite (evs ++ more)).c = .crash := by
  have hl : loop w (evs ++ more) (start w invite) = loop w evs (start w invite) := by
    rw [loop_append]
    exact loop_crash more _ h
  unfold dialog
  dsimp only
  rw [hl, h]
  exact h

/-- **C78** (the converse). Every call that is going is brought down by an ICMP "port unreachable". -/
theorem C78_refused_crashes (w : World) (invite : Msg) (evs more : List Event) (e : Nat) (hi : IsInvite invite)
    (hid : ∀ n, (w.ids n).callID ≠ []) (hg : (loop w evs (start w invite)).c = .go) :
    (dialog w invite (evs ++ .sockErr true e :: more)).c = .crash := by
  obtain ⟨c, hs⟩ := (alive_dialog hi hid hg).sock
  rw [show evs ++ .sockErr true e :: more = (evs ++ [.sockErr true e]) ++ more by simp]
  apply dialog_crash
  rw [loop_snoc, Run.andThen_of_go hg]
  simp [step, hs]

/-- **C78** (the converse). Every call that is going, while writing to the socket works, is brought down by every response
that is fatal. -/
theorem C78_response_crashes (w : World) (invite : Msg) (evs more : List Event) (m : Msg) (d : Bytes) (x : Msg)
    (hi : IsInvite invite) (hid : ∀ n, (w.ids n).callID ≠ []) (hw : ∀ n, w.write n = .ok ())
    (hg : (loop w evs (start w invite)).c = .go)
    (hx : (requests (loop w evs (start w invite)).s.outs).getLast? = some (d, x)) (hr : 0 < m.status) (hf : Fatal x m) :
    (dialog w invite (evs ++ .msg m :: more)).c = .crash := by
  obtain ⟨c, cur, hs, hc, h3⟩ := current hi hid hg hx
  obtain ⟨v, hv⟩ := h3.only
  have hmeth : cur.method = x.method := by rw [hv]
  have hcid : cur.callID = x.callID := by rw [hv]
  rw [show evs ++ .msg m :: more = (evs ++ [.msg m]) ++ more by simp]
  apply dialog_crash
  rw [loop_snoc, Run.andThen_of_go hg]
  cases hf with
  | offer _ _ h => omega
  | answer hcall hver hm hst hcon ha =>
    rw [response_step hs hc hver (hcall.trans hcid.symm) (answers_stamped h3.stamped hm)]
    have key : ∀ s, (settle s m).c = .crash := by
      intro s
      unfold settle
      dsimp only
      rw [if_pos hst]
      exact checkSDP_crash ha
    by_cases hack : 200 ≤ m.status ∧ cur.method = b!"INVITE"
    · obtain ⟨a, ack, y, _, _, h⟩ := ack_ok hw hs hack.2 (answers_stamped h3.stamped hm) hack.1
        (hcon (by omega) (hmeth.symm.trans hack.2))
      rw [h]
      simp only [Run.andThen]
      rw [key]
      exact key _
    · rw [ackFinal_none hack]
      simp only [Run.andThen]
      rw [key]
      exact key _
  | nowhere hcall hver hm hne hst hcon =>
    rw [response_step hs hc hver (hcall.trans hcid.symm) (answers_stamped h3.stamped hm),
      ackFinal_none (fun h => hne (hmeth.symm.trans h.2))]
    simp only [Run.andThen]
    rw [settle_refused (by rcases hst with h | h <;> omega)]
    dsimp only
    unfold handleStatus
    rw [if_neg (by rcases hst with h | h <;> omega), if_neg (by rcases hst with h | h <;> omega),
      if_neg (by rcases hst with h | h <;> omega), if_neg (by rcases hst with h | h <;> omega), if_pos hst]
    unfold redirect
    rw [hcon]
    rfl

/-- **C78** (the converse). Every call that is going is brought down by a new offer without audio, unless it is numbered
lower than an earlier request. -/
theorem C78_offer_crashes (w : World) (invite : Msg) (evs more : List Event) (m : Msg) (callID : Bytes)
    (hi : IsInvite invite) (hid : ∀ n, (w.ids n).callID ≠ [])
    (hg : (loop w evs (start w invite)).c = .go)
    (hcall : ∃ x ∈ requests (loop w evs (start w invite)).s.outs, x.2.callID = callID)
    (hm : m.method = b!"INVITE") (ho : Proper callID m) (hnew : Newest callID evs m) (ha : NoAudio m) :
    (dialog w invite (evs ++ .msg m :: more)).c = .crash := by
  have hal := alive_dialog hi hid hg
  obtain ⟨c, hs⟩ := hal.sock
  obtain ⟨cur, hc, hcid⟩ := callID_cur hal hcall
  have hseq := seq_newest hi hid hg hcall hnew
  rw [show evs ++ .msg m :: more = (evs ++ [.msg m]) ++ more by simp]
  apply dialog_crash
  rw [loop_snoc, Run.andThen_of_go hg]
  rw [offer_step hs hc ho.request hm ho.version (ho.call.trans hcid.symm) ho.forwards hseq]
  have := checkSDP_crash (s := { (loop w evs (start w invite)).s with rseq := m.cseq, remote := some m }) ha
  unfold Run.andThen
  rw [this]
  exact this

/-- **C78** (the converse). An answered call is brought down, as the application hangs up, after a new offer that does not
say where the other side is to be reached. -/
theorem C78_hangup_crashes (w : World) (invite : Msg) (evs more : List Event) (m : Msg) (callID : Bytes)
    (hi : IsInvite invite) (hid : ∀ n, (w.ids n).callID ≠ []) (hw : ∀ n, w.write n = .ok ())
    (hg : (loop w evs (start w invite)).c = .go)
    (hst : (published (loop w evs (start w invite)).s.outs).getLast? = some .answered)
    (hcall : ∃ x ∈ requests (loop w evs (start w invite)).s.outs, x.2.callID = callID)
    (hm : m.method = b!"INVITE") (ho : Proper callID m) (hnew : Newest callID evs m) (hcon : m.addrs .contact = [])
    (hv : m.via ≠ [] ∨ ∀ n, w.clock n = none) :
    (dialog w invite (evs ++ .msg m :: .hangup :: more)).c = .crash := by
  have hal := alive_dialog hi hid hg
  have hl := (shown_loop w invite evs).last
  rw [hst] at hl
  obtain ⟨c, hs⟩ := hal.sock
  obtain ⟨cur, hc, hcid⟩ := callID_cur hal hcall
  have hseq := seq_newest hi hid hg hcall hnew
  rw [show evs ++ .msg m :: .hangup :: more = (evs ++ [.msg m] ++ [.hangup]) ++ more by simp]
  apply dialog_crash
  rw [loop_snoc, loop_snoc, Run.andThen_of_go hg]
  exact offer_then_hangup hs hc ho.request hm ho.version (ho.call.trans hcid.symm) ho.forwards hseq hw hv hl.symm hcon

/-- How the demonstration call stands after a datagram has arrived. -/
def demoArrives (before : List Event) (datagram : Bytes) (after : List Event) : Cont :=
  match receiveOne b!"10.0.0.1" 5070 none datagram ⟨b!"10.0.0.2", 5060⟩ with
  | .ok (some m) => (dialog demoWorld demoInvite (before ++ .msg m :: after)).c
  | _ => .stuck

/-- One datagram of each fatal kind, as it is on the wire: an answer with video only, a new offer with video only, a BYE
redirected to nowhere, a new offer without Contact. The last is the new offer of a stranger, which does no harm. -/
example :
    demoArrives [] b!"SIP/2.0 200 OK\r\nVia: SIP/2.0/UDP 10.0.0.1:5070;branch=z9hG4bKAA\r\nContact: <sip:bob@10.0.0.2>\r\nCall-ID: id\r\nCSeq: 7 INVITE\r\nContent-Type: application/sdp\r\nContent-Length: 107\r\n\r\nv=0\r\no=- 1 2 IN IP4 1.2.3.4\r\ns=x\r\nc=IN IP4 1.2.3.4\r\nt=0 0\r\nm=video 5004 RTP/AVP 99\r\na=rtpmap:99 VP8/90000\r\n" [] = .crash ∧
    demoArrives [demoRsp [] 200] b!"INVITE sip:alice@10.0.0.1 SIP/2.0\r\nVia: SIP/2.0/UDP 10.0.0.2;branch=z9hG4bKbob\r\nMax-Forwards: 9\r\nContact: <sip:bob@10.0.0.2>\r\nCall-ID: id\r\nCSeq: 1 INVITE\r\nContent-Type: application/sdp\r\nContent-Length: 107\r\n\r\nv=0\r\no=- 1 2 IN IP4 1.2.3.4\r\ns=x\r\nc=IN IP4 1.2.3.4\r\nt=0 0\r\nm=video 5004 RTP/AVP 99\r\na=rtpmap:99 VP8/90000\r\n" [] = .crash ∧
    demoArrives [demoRsp [] 200, .hangup] b!"SIP/2.0 302 Moved\r\nVia: SIP/2.0/UDP 10.0.0.1:5070;branch=z9hG4bKAAAAAAA\r\nCall-ID: id\r\nCSeq: 8 BYE\r\n\r\n" [] = .crash ∧
    demoArrives [demoRsp [] 200] b!"INVITE sip:alice@10.0.0.1 SIP/2.0\r\nVia: SIP/2.0/UDP 10.0.0.2;branch=z9hG4bKbob\r\nMax-Forwards: 9\r\nCall-ID: id\r\nCSeq: 1 INVITE\r\n\r\n" [.hangup] = .crash ∧
    demoArrives [demoRsp [] 200] b!"INVITE sip:alice@10.0.0.1 SIP/2.0\r\nVia: SIP/2.0/UDP 10.0.0.2;branch=z9hG4bKbob\r\nMax-Forwards: 9\r\nCall-ID: other\r\nCSeq: 1 INVITE\r\n\r\n" [.hangup] = .go := by
  decide +kernel

end Gosip.Props
