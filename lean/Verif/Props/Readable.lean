import Verif.Dialog.ReadableLoop
import Verif.Props.Carried

/-!
# Property C94: all that a call sends can be read
-/

namespace Gosip.Props
open Sip Spec Dialog

/-- What a dialog sends are texts of messages that can be written. -/
theorem written (w : World) (invite : Msg) (evs : List Event) (hw : PlainWorld w) (hi : Writable w invite)
    (he : ∀ m, .msg m ∈ evs → ∃ gen, MsgOK gen m)
    (hc : invite.cseq + evs.length < 2 ^ 63 ∧ ∀ n, (w.ids n).cseq + evs.length < 2 ^ 63) :
    ∀ d m x, .sent d m x ∈ (loop w evs (start w invite)).s.outs → Written w m x := by
  have h0 : Fit w evs.length { invite := invite } := by
    refine ⟨(fun d m x h => nomatch h), (fun c h => nomatch h), ⟨hi, hc.1⟩, (fun m h => nomatch h), (fun m h => nomatch h),
      (fun m h => nomatch h), Int.le_refl 0, ?_⟩
    have := hi.cseq
    have := hc.1
    show (0 : Int) + evs.length < 2 ^ 63
    omega
  have h1 := fits_sendInvite hw (by omega) hc.2 h0
  exact (fits_loop hw evs _ h1 hc.2 he).1.sent

/-- **C94.** If the INVITE given by the application can be written, the other side sends messages that can be read, and
there are numbers left for the requests, then every message that a dialog sends (INVITE, BYE, CANCEL, ACK and responses,
first or retransmitted, to the first address or another one, after redirections) is read by `ParseMsg` as this message. -/
theorem C94_readable (w : World) (invite : Msg) (evs : List Event) (hw : PlainWorld w) (hi : Writable w invite)
    (he : ∀ m, .msg m ∈ evs → ∃ gen, MsgOK gen m)
    (hc : invite.cseq + evs.length < 2 ^ 63 ∧ ∀ n, (w.ids n).cseq + evs.length < 2 ^ 63) :
    ∀ d m x, .sent d m x ∈ (dialog w invite evs).s.outs → ReadsAs w m x := by
  have h2 : ∀ d m x, .sent d m x ∈ (loop w evs (start w invite)).s.outs → ReadsAs w m x := by
    intro d m x hx
    obtain ⟨h, n, rfl⟩ := written w invite evs hw hi he hc d m x hx
    exact reads_of hw h n
  intro d m x hx
  rcases dialog_outs w invite evs with h | h
  · rw [h] at hx; exact h2 d m x hx
  · rw [h] at hx
    simp only [List.mem_append, List.mem_singleton, reduceCtorEq, or_false] at hx
    exact h2 d m x hx

/-! ## The phone -/

theorem natDec_length (n : Nat) : (natDec n).length ≤ n + 1 := by
  have key : ∀ f n acc, (natDecAux f n acc).length ≤ acc.length + f := by
    intro f
    induction f with
    | zero => intro n acc; exact Nat.le_refl _
    | succ f ih =>
      intro n acc
      unfold natDecAux
      split
      · simp only [List.length_cons]; omega
      · have := ih (n / 10) (digitByte (n % 10) :: acc)
        simp only [List.length_cons] at this
        omega
  have := key (n + 1) n []
  simpa [natDec] using this

/-- The session description of the phone. -/
def phoneSdp (ip : Bytes) (port : UInt16) (origin : Bytes) : Sdp.SDP :=
  { addr := ip, origin := { id := origin, addr := ip },
    audio := some { port := port, codecs := [Sdp.ulawCodec, Sdp.dtmfCodec] } }

theorem phoneSdp_filled {ip origin : Bytes} {port : UInt16} (hip : ip ≠ []) (ho : origin ≠ []) (gen : Bytes) :
    (phoneSdp ip port origin).filled gen =
      { addr := ip
        origin := ⟨b!"-", origin, origin, ip⟩
        audio := some ⟨b!"RTP/AVP", port, [Sdp.ulawCodec, Sdp.dtmfCodec]⟩
        session := b!"my people call themselves dark angels"
        time := b!"0 0" } := by
  unfold phoneSdp Sdp.SDP.filled
  simp only [Sdp.orElse, if_neg hip, if_neg ho, Option.map]
  rfl

theorem noCRLF_plain {t : Bytes} (h : 13 ∉ t) : NoCRLF t := by
  intro a b e; exact h (by rw [e]; simp)

theorem phoneSdp_ok {ip origin : Bytes} {port : UInt16} (hip : HostOK ip ∧ ∀ c ∈ ip, viaHostc c)
    (ho : origin ≠ [] ∧ ∀ c ∈ origin, isDigit c = true) (hl : ip.length < 2 ^ 60 ∧ origin.length < 2 ^ 60) (gen : Bytes) :
    PayloadOK gen (.sdp ((phoneSdp ip port origin).filled gen)) := by
  have hv : ∀ c : UInt8, viaHostc c → c ≠ 32 ∧ c ≠ 47 ∧ c ≠ 13 := by decide +kernel
  have hd : ∀ c : UInt8, isDigit c = true → c ≠ 32 ∧ c ≠ 13 := by decide +kernel
  have hip1 : 32 ∉ ip ∧ 47 ∉ ip ∧ 13 ∉ ip :=
    ⟨fun h => (hv _ (hip.2 _ h)).1 rfl, fun h => (hv _ (hip.2 _ h)).2.1 rfl, fun h => (hv _ (hip.2 _ h)).2.2 rfl⟩
  have ho1 : 32 ∉ origin ∧ 13 ∉ origin := ⟨fun h => (hd _ (ho.2 _ h)).1 rfl, fun h => (hd _ (ho.2 _ h)).2 rfl⟩
  rw [phoneSdp_filled hip.1.1 ho.1]
  refine ⟨?_, ?_⟩
  · have hp := natDec_length port.toNat
    have hp2 : port.toNat < 65536 := port.toNat_lt
    have hk : ([Sdp.ulawCodec, Sdp.dtmfCodec].flatMap Sdp.Codec.text).length < 200 := by decide +kernel
    have hk2 : ([Sdp.ulawCodec, Sdp.dtmfCodec].flatMap (fun c => b!" " ++ itoa c.pt.toNat)).length < 200 := by decide +kernel
    simp only [Payload.data, Sdp.SDP.text, Sdp.Origin.text, Sdp.Media.text, List.length_append]
    by_cases h6 : isIPv6 ip = true <;> simp [hip.1.1, ho.1, h6] at hk hk2 ⊢ <;> omega
  · refine ⟨⟨List.cons_ne_nil _ _, ?_⟩, ⟨List.cons_ne_nil _ _, ?_⟩, ⟨hip.1.1, hip1.1, hip1.2.1, noCRLF_plain hip1.2.2⟩, ?_,
      hip1.2.1, .inl (by simp), ?_, (fun m h => nomatch h), ?_, zero_ok, (fun h => nomatch h.1), (fun a h => nomatch h),
      fun a h => nomatch h⟩
    · show NoCRLF b!"my people call themselves dark angels"
      exact noCRLF_plain (by decide)
    · show NoCRLF b!"0 0"
      exact noCRLF_plain (by decide)
    · intro t ht
      simp only [List.mem_cons, List.not_mem_nil, or_false] at ht
      rcases ht with rfl | rfl | rfl | rfl
      · exact ⟨by decide, by decide, noCRLF_plain (by decide)⟩
      · exact ⟨ho.1, ho1.1, noCRLF_plain ho1.2⟩
      · exact ⟨ho.1, ho1.1, noCRLF_plain ho1.2⟩
      · exact ⟨hip.1.1, hip1.1, noCRLF_plain hip1.2.2⟩
    · intro m hm
      cases hm
      refine ⟨show b!"RTP/AVP" ≠ [] ∧ 32 ∉ b!"RTP/AVP" ∧ NoCRLF b!"RTP/AVP" from
        ⟨by decide, by decide, noCRLF_plain (by decide)⟩, by simp, ?_⟩
      intro c hc
      exact C75_codecs_ok.1 c (by revert hc; simp; exact fun h => h.elim .inl (.inr ∘ .inl))
    · show ∀ c ∈ [Sdp.ulawCodec, Sdp.dtmfCodec], ∀ c' ∈ [Sdp.ulawCodec, Sdp.dtmfCodec], c.pt = c'.pt → c = c'
      decide

theorem writable_phone (w : World) {request : URI} {ip user origin : Bytes} {port : UInt16}
    (hr : URIText (withScheme request).text (withScheme request)) (hip : HostOK ip ∧ ∀ c ∈ ip, viaHostc c)
    (ho : origin ≠ [] ∧ ∀ c ∈ origin, isDigit c = true) (hl : ip.length < 2 ^ 60 ∧ origin.length < 2 ^ 60) :
    Writable w (Fone.invite request ip user port origin) := by
  have hu : ∀ user : Bytes, UriOK { host := ip, user := user } := fun user =>
    (uriOK_iff _).2 ⟨.inl rfl, hip.1, fun _ => rfl, by simp, by simp⟩
  refine ⟨Int.le_refl _, token_of b!"INVITE" (by decide) (by decide), ⟨request, rfl, hr⟩, zero_ok, ?_, ?_, .inl rfl, Int.le_refl _,
    .inl rfl, zero_ok, zero_ok, ?_, (fun p hp => nomatch hp), ?_⟩
  · intro v hv
    simp only [Fone.invite, List.mem_singleton] at hv
    subst hv
    exact ⟨by simp, by simp, by simp, hip.1.1, hip.2, param_nil⟩
  · intro f a ha
    cases f <;> simp only [Fone.invite, List.mem_singleton, List.not_mem_nil] at ha
    all_goals subst ha
    · exact addrOK_mk rfl (hu _) display_nil param_nil
    · exact addrOK_mk rfl hr display_nil param_nil
    · exact addrOK_mk rfl (hu _) display_nil param_nil
  · intro f _
    cases f <;> first | exact textOK_nil | exact plain_of (s := b!"dark lord funk you up") (by decide) (by decide)
  · intro p hp
    cases hp
    intro d' hd' n
    have : d' = phoneSdp ip port origin := by
      rw [hd'.only]
      rcases hd'.addr with k1 | ⟨k1, _⟩
      · rcases hd'.oaddr with k2 | ⟨k2, _⟩
        · rcases hd'.id with k3 | ⟨k3, _⟩
          · rw [k1, k2, k3]; rfl
          · exact absurd k3 ho.1
        · exact absurd k2 hip.1.1
      · exact absurd k1 hip.1.1
    rw [this]
    exact phoneSdp_ok hip ho hl _

/-- **C94** (the phone). Whoever reads an INVITE of the phone learns who calls, who is called, and where to send audio in
which codecs. -/
theorem C94_phone (w : World) (evs : List Event) (request : URI) (ip user origin : Bytes) (port : UInt16) (hw : PlainWorld w)
    (hr : URIText (withScheme request).text (withScheme request)) (hip : HostOK ip ∧ ∀ c ∈ ip, viaHostc c)
    (ho : origin ≠ [] ∧ ∀ c ∈ origin, isDigit c = true) (hl : ip.length < 2 ^ 60 ∧ origin.length < 2 ^ 60)
    (he : ∀ m, .msg m ∈ evs → ∃ gen, MsgOK gen m)
    (hc : evs.length < 2 ^ 63 ∧ ∀ n, (w.ids n).cseq + evs.length < 2 ^ 63) :
    ∀ d m x, .sent d m x ∈ (dialog w (Fone.invite request ip user port origin) evs).s.outs →
      m.status = 0 → m.method = b!"INVITE" →
      ∃ m' t sd, parseMsg x = .ok m' ∧ m'.method = b!"INVITE" ∧
        m'.addrs .to = [{ uri := some (withScheme request) }] ∧
        m'.addrs .from = [{ uri := some { scheme := b!"sip", host := ip, user := user }, param := [(b!"tag", t)] }] ∧
        m'.payload = some (.sdp sd) ∧ sd.addr = ip ∧
        sd.audio = some { proto := b!"RTP/AVP", port := port, codecs := [Sdp.ulawCodec, Sdp.dtmfCodec] } := by
  intro d m x hx hs hm
  have hI := writable_phone w (user := user) (port := port) hr hip ho hl
  obtain ⟨n, hn⟩ := C94_readable w _ evs hw hI he ⟨by show (0 : Int) + _ < _; omega, hc.2⟩ d m x hx
  have hq : (d, m) ∈ requests (dialog w (Fone.invite request ip user port origin) evs).s.outs := by
    unfold requests
    refine List.mem_filter.2 ⟨?_, ?_⟩
    · exact List.mem_filterMap.2 ⟨_, hx, rfl⟩
    · simp only [hs, hm]; decide
  obtain ⟨⟨t, h1⟩, h2⟩ := C93_phone w evs request ip user port origin hip.1.1 ho.1 (d, m) hq
  obtain ⟨h3, _, h4⟩ := h2 hm
  have h5 : (readBack (seen (w.origin n) m)).payload = some (.sdp ((phoneSdp ip port origin).filled (w.origin n))) := by
    have : (seen (w.origin n) m).payload = some (.sdp ((phoneSdp ip port origin).filled (w.origin n))) := by
      show m.payload.map _ = _
      rw [show m.payload = some (.sdp (phoneSdp ip port origin)) from h4]
      rfl
    unfold readBack
    dsimp only
    rw [this, if_neg (by rintro ⟨_, e⟩; cases e)]
  refine ⟨_, t, _, hn, ?_, ?_, ?_, h5, ?_, ?_⟩
  · show (if m.status > 0 then [] else if m.method = [] then b!"INVITE" else m.method) = _
    rw [hs, hm]; decide
  · show (m.addrs .to).map addrSeen = _
    rw [h3]; rfl
  · show (m.addrs .from).map addrSeen = _
    rw [h1]; rfl
  · rw [phoneSdp_filled hip.1.1 ho.1]
  · rw [phoneSdp_filled hip.1.1 ho.1]

/-! ## Examples -/

theorem demo_plain : PlainWorld demoWorld := by
  refine ⟨fun n => ⟨b!"id", [], by decide, by decide +kernel, .inl rfl⟩, fun n c hc => ?_, fun n c hc => ?_, fun n => by show (0 : Int) ≤ 7; decide, ?_,
    fun n => by show b!"1" ≠ []; decide⟩
  · have hc' : c ∈ b!"z9hG4bK" ++ List.replicate n 65 := hc
    rcases List.mem_append.1 hc' with h | h
    · exact (show ∀ c ∈ b!"z9hG4bK", token c by decide +kernel) c h
    · rw [(List.mem_replicate.1 h).2]; decide
  · exact (show ∀ c ∈ b!"tag", token c by decide +kernel) c hc
  · rintro c ⟨n, a, h⟩
    cases h
    have h1 : HostOK b!"10.0.0.1" := ⟨by decide, by decide +kernel, .inl (by decide +kernel)⟩
    have h2 : ∀ c ∈ b!"10.0.0.1", viaHostc c := by decide +kernel
    exact ⟨h1, h2⟩

/-- A BYE of the other side. -/
theorem demo_heard : MsgOK b!"1" (demoReqMsg b!"BYE" 6) := by
  have ok : ∀ u : URI, parseURI u.text = .ok u → AddrOK { uri := some u } := fun u h =>
    ⟨⟨u, rfl, (C02_parseURI_grammar _ _).1 h⟩, display_nil, param_nil⟩
  refine ⟨.inl ⟨Int.le_refl _, .inr tok_bye, ?_, by decide⟩, ?_, ?_, by decide, by decide, ⟨b!"id", [], by decide, by decide +kernel, .inl rfl⟩,
    by decide, tok_bye, zero_ok, zero_ok, fun f _ => textOK_nil, (fun p hp => nomatch hp), fun p hp => nomatch hp⟩
  · intro u hu
    cases hu
    exact (C02_parseURI_grammar _ _).1 (by decide +kernel)
  · intro v hv
    simp only [demoReqMsg, List.mem_singleton] at hv
    subst hv
    exact ⟨by simp, by simp, by simp, by simp, by decide +kernel,
      paramOK_cons (token_of _ (by decide) (by decide)) (.inl (by decide +kernel)) param_nil⟩
  · intro f a ha
    cases f <;> simp only [demoReqMsg, List.mem_singleton, List.not_mem_nil] at ha
    all_goals subst ha; exact ok _ (by decide +kernel)

-- A call of the phone that is ended by the other side: the hypotheses hold, an INVITE and a response are sent.
example : PlainWorld demoWorld ∧ Writable demoWorld demoCall ∧
    (∀ m, Event.msg m ∈ [Event.requestTimer, .msg (demoReqMsg b!"BYE" 6)] → ∃ gen, MsgOK gen m) ∧
    (sends (dialog demoWorld demoCall [.requestTimer, .msg (demoReqMsg b!"BYE" 6)]).s.outs).map
      (fun x => (x.2.method, x.2.status)) = [(b!"INVITE", 0), (b!"INVITE", 0), ([], 200)] := by
  refine ⟨demo_plain, writable_phone _ ?_ ⟨⟨by decide, by decide +kernel, .inl (by decide +kernel)⟩, by decide +kernel⟩
    ⟨by decide, by decide +kernel⟩ ⟨by decide, by decide⟩, ?_, by decide +kernel⟩
  · exact (C02_parseURI_grammar _ _).1 (by decide +kernel)
  · intro m hm
    simp only [List.mem_cons, Event.msg.injEq, reduceCtorEq, List.not_mem_nil, or_false, false_or] at hm
    subst hm
    exact ⟨_, demo_heard⟩

end Gosip.Props
