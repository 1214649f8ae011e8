import Verif.Sip.Relay
import Verif.Props.Grammar
import Verif.Props.RoundTrip

/-!
# Property C77: a message that was received can be passed on
-/

namespace Gosip.Props
open Sip Spec MsgM

/-- **C77.** Whatever text a message was read from, if it has what `Relayable` lists, then its own text is read as the
same message, up to the defaults and header names of C14 (`readBack`). Nothing is asked of the extension headers, the
Call-ID, the methods, the tokens of parameters and Vias, the URIs (other than `&` in their headers) or the bytes of a
body: what was accepted is written acceptably. -/
theorem C77_passed_on_partial (gen : Bytes) {d : Bytes} {m : Msg} (h : parseMsg d = .ok m) (r : Relayable gen m) :
    parseMsg (m.text gen) = .ok (readBack m) :=
  C14_read_back gen (Relay.relay_ok ((C76_message_grammar d m).1 h) r)

/-- **C77.** It arrives unchanged if the version is not 0, the hop count is given in a request and not in a response,
no Via names the port 5060 and there is neither `Accept-Contact` nor `Retry-After`. -/
theorem C77_unchanged_partial (gen : Bytes) {d : Bytes} {m : Msg} (h : parseMsg d = .ok m) (r : Relayable gen m)
    (hv : m.versionMajor ≠ 0) (hmf : m.maxForwards = 0 ↔ m.method = []) (hp : ∀ v ∈ m.via, v.port ≠ 5060)
    (h1 : m.hdr .acceptContact = []) (h2 : m.hdr .retryAfter = []) : parseMsg (m.text gen) = .ok m := by
  have hg := (C76_message_grammar d m).1 h
  have ok := Relay.relay_ok hg r
  obtain ⟨s, ls, body, m0, x, _, _, _, hs, hl, hb⟩ := hg
  have k := Relay.kept_lines hl (Relay.kept_start hs)
  obtain ⟨e1, e2, e3, e4, _, _⟩ := Relay.start_lines hl
  obtain ⟨p, hm, hpay⟩ : ∃ p, m = { x.msg with payload := p } ∧ ∀ t, p ≠ some (.misc t []) := by
    rcases hb with ⟨_, e⟩ | ⟨_, hne, p, ⟨p1, p2⟩, e⟩
    · refine ⟨x.msg.payload, e, fun t => ?_⟩
      rw [Relay.no_payload hl]
      cases hs <;> (intro e; cases e)
    · refine ⟨p, e, fun t e' => ?_⟩
      by_cases ht : x.type = b!"application/sdp"
      · obtain ⟨ms, _, e2⟩ := p2 ht
        rw [e2] at e'
        cases e'
      · rw [p1 ht] at e'
        cases e'
        exact hne rfl
  have hsrc : x.msg.sourceAddr = none := by
    rw [Relay.no_source hl]
    cases hs <;> rfl
  have fields : (m.method ≠ [] ∧ m.request ≠ none ∧ m.status = 0 ∧ m.phrase = []) ∨
      (m.method = [] ∧ m.request = none ∧ m.phrase ≠ []) := by
    subst hm
    show (x.msg.method ≠ [] ∧ x.msg.request ≠ none ∧ x.msg.status = 0 ∧ x.msg.phrase = []) ∨
      (x.msg.method = [] ∧ x.msg.request = none ∧ x.msg.phrase ≠ [])
    rw [e1, e2, e3, e4]
    cases hs with
    | request hm _ _ => exact .inl ⟨hm.1, by simp, rfl, rfl⟩
    | response _ _ _ ht hp =>
      refine .inr ⟨rfl, rfl, ?_⟩
      intro e
      have e : _ = ([] : Bytes) := e
      cases hp with
      | nil => exact ht rfl
      | char => cases e
      | esc => cases e
      | utf8 => cases e
  have hsub := hm
  have c : Complete m := by
    refine ⟨hv, fun hst => ?_, fun hst => ?_, fun v hvm => ?_, h1, h2, ?_, ?_⟩
    · rcases fields with ⟨f1, f2, f3, f4⟩ | ⟨f1, _⟩
      · exact ⟨f1, f2, fun e => f1 (hmf.1 e), f3, f4⟩
      · have := r.status f1
        omega
    · rcases fields with ⟨_, _, f3, _⟩ | ⟨f1, f2, _⟩
      · omega
      · exact ⟨f1, f2, hmf.2 f1⟩
    · rw [hm] at hvm
      obtain ⟨t, ht⟩ := k.via v hvm
      have := hp v (by rw [hm]; exact hvm)
      cases ht with
      | mk h1 _ h2 _ h3 => exact ⟨h1.1, h2.1, h3.1, this⟩
    · intro t; rw [hm]; exact hpay t
    · rw [hm]; exact hsrc
  have := C14_message_round_trip_partial gen ok c
  rw [this]
  congr 1
  unfold Msg.appended
  rw [if_neg]
  rintro ⟨f1, f2⟩
  rcases fields with ⟨_, _, f3, _⟩ | ⟨_, _, f4⟩
  · rw [Msg.isResponse, f3] at f1; cases f1
  · exact f4 f2

theorem phraseOf_ne (st : Int) : phraseOf st ≠ [] := (phrase_ok st).2

theorem retry_name : IsName b!"RetryAfter" ∧ headerOf b!"RetryAfter" = none ∧ ¬ StubName b!"RetryAfter" := by
  refine ⟨by decide +kernel, by decide +kernel, ?_⟩
  rintro ⟨_, p, hp, h⟩
  revert p
  decide +kernel

/-- **C77.** The second hop changes nothing more: the message read from the text of a message is read from its own
text. -/
theorem C77_settled (gen : Bytes) {m : Msg} (h : MsgOK gen m) : parseMsg ((readBack m).text gen) = .ok (readBack m) := by
  have tok : ∀ {s t : Bytes}, (∀ c ∈ s, token c) → (∀ c ∈ t, token c) → ∀ c ∈ (if s = [] then t else s), token c := by
    intro s t h1 h2
    split
    · exact h2
    · exact h1
  have ok : MsgOK gen (readBack m) := by
    refine ⟨?_, ?_, h.addrs, h.from_, h.to, h.callID, h.cseq, h.cseqMethod, h.expires, h.minExpires, ?_, ?_, ?_⟩
    · rcases h.start with r | r
      · have hs : ¬ m.status > 0 := by have := r.status; omega
        refine .inl ⟨by simp [readBack, hs], .inr ?_, ?_, ?_⟩
        · simp only [readBack, if_neg hs]
          rcases r.method with e | e
          · rw [if_pos e]; exact ⟨by decide, by decide +kernel⟩
          · rw [if_neg e.1]; exact e
        · intro u hu
          simp only [readBack, if_neg hs, Option.some.injEq] at hu
          cases e : m.request with
          | none => rw [e] at hu; cases hu; exact default_uri
          | some w => rw [e] at hu; cases hu; exact r.request _ e
        · simp only [readBack, if_neg hs]
          split
          · decide
          · exact r.maxForwards
      · have hs : m.status > 0 := by have := r.status; omega
        refine .inr ⟨by simpa [readBack, hs] using r.status, ?_⟩
        simp only [readBack, if_pos hs]
        split
        · exact (phrase_ok _).1
        · exact r.phrase
    · intro v hv
      obtain ⟨w, hw, rfl⟩ := List.mem_map.1 hv
      have := h.via w hw
      exact ⟨tok this.protocol (by decide +kernel), tok this.version (by decide +kernel), tok this.transport (by decide +kernel),
        this.host, this.hostc, this.param⟩
    · intro f hf
      show TextOK (if f = .acceptContact ∨ f = .retryAfter then [] else m.hdr f)
      split
      · exact ⟨.nil, rfl⟩
      · exact h.hdr f hf
    · intro p hp
      rcases List.mem_append.1 hp with hp | hp
      · exact h.xheader p hp
      · by_cases hr : m.hdr .retryAfter = []
        · rw [if_pos hr] at hp; cases hp
        · rw [if_neg hr, List.mem_singleton] at hp
          subst hp
          exact ⟨retry_name.1, retry_name.2.1, retry_name.2.2, h.hdr _ (by decide)⟩
    · intro p hp
      simp only [readBack] at hp
      split at hp
      · cases hp
      · exact h.payload p hp
  have c : Complete (readBack m) := by
    refine ⟨?_, ?_, ?_, ?_, by simp [readBack], by simp [readBack], ?_, rfl⟩
    · simp only [readBack]
      split
      · decide
      · assumption
    · intro hs
      have hs' : ¬ m.status > 0 := by
        intro g
        simp only [readBack, if_pos g] at hs
        omega
      simp only [readBack, if_neg hs']
      refine ⟨?_, by simp, ?_, trivial, trivial⟩
      · split
        · decide
        · assumption
      · split
        · decide
        · assumption
    · intro hs
      have hs' : m.status > 0 := by
        apply Classical.byContradiction
        intro g
        simp [readBack, if_neg g] at hs
      simp [readBack, if_pos hs']
    · intro v hv
      obtain ⟨w, _, rfl⟩ := List.mem_map.1 hv
      have ne : ∀ {s t : Bytes}, t ≠ [] → (if s = [] then t else s) ≠ [] := by
        intro s t ht
        split <;> assumption
      refine ⟨ne (by decide), ne (by decide), ne (by decide), ?_⟩
      simp only [viaRead]
      split
      · decide
      · assumption
    · intro t e
      simp only [readBack] at e
      split at e
      · cases e
      · rename_i hn
        exact hn ⟨t, e⟩
  rw [C14_message_round_trip_partial gen ok c]
  congr 1
  unfold Msg.appended
  rw [if_neg]
  rintro ⟨f1, f2⟩
  have hs : (readBack m).status > 0 := by simpa [Msg.isResponse] using f1
  have hs' : m.status > 0 := by
    apply Classical.byContradiction
    intro hn
    simp [readBack, hn] at hs
  simp only [readBack, if_pos hs'] at f2
  by_cases hp : m.phrase = []
  · rw [if_pos hp] at f2
    exact phraseOf_ne _ f2
  · rw [if_neg hp] at f2
    exact hp f2

/-! ## The conditions are met, and needed -/

/-- A message with a folded header, quoted strings and a body. -/
def relaySample : Msg :=
  { method := b!"OPTIONS", request := some { scheme := b!"sip", user := b!"b@b", host := b!"::1" }, versionMajor := 2,
    via := [{ protocol := b!"SIP", version := b!"2.0", transport := b!"UDP", host := b!"h", param := [(b!"x", b!"a: b"), (b!"branch", b!"1")] }],
    addrs := setAt (setAt (fun _ => []) .from [{ display := b!"A: B", uri := some { scheme := b!"sip", host := b!"a" }, param := [(b!"tag", b!"1")] }])
      .to [{ display := b!"C D", uri := some { scheme := b!"sip", host := b!"b" } }],
    callID := b!"c", cseq := 1, cseqMethod := b!"OPTIONS", maxForwards := 7,
    hdr := setAt (fun _ => []) .subject b!"a\r\n b", xheader := [(b!"X", [])],
    payload := some (.misc b!"text/plain" b!"hi") }

theorem relaySample_read : parseMsg (b!"OPTIONS SIP:b%40b@[::1] SIP/2.0\r\nv: SIP / 2.0/UDP h;branch=1 ; x=\"a: b\"\r\n" ++
    b!"From: \"A: B\" <sip:a>;tag=1\r\nTo: C D <sip:b>\r\nCall-ID: c\r\nCSeq: 1 OPTIONS\r\nMax-Forwards: 7\r\n" ++
    b!"Subject:\r\n a\r\n b\r\nX:\r\nContent-Type: text/plain;a=b\r\nContent-Length: 2\r\n\r\nhi") = .ok relaySample := by
  decide +kernel

theorem relaySample_ok : Relayable [] relaySample where
  status := by decide
  phrase := .nil
  request := by rintro u ⟨⟩; intro p hp; cases hp
  viaHost := by decide +kernel
  viaParam := by
    have h : ∀ v ∈ relaySample.via, ∀ p ∈ v.param, (∀ c ∈ p.2, c.toNat < 128) ∧ (32 ∈ p.2 → ∃ c ∈ p.2, ¬ token c ∧ c ≠ 32) := by
      decide +kernel
    exact h
  uris := by
    have h : ∀ f, ∀ a ∈ relaySample.addrs f, ∀ u ∈ a.uri, ∀ p ∈ u.header, 38 ∉ p.1 ∧ 38 ∉ p.2 := by
      intro f; cases f <;> decide +kernel
    exact fun f a ha u hu => h f a ha u hu
  displays := by
    have h : ∀ f, ∀ a ∈ relaySample.addrs f, (∀ c ∈ a.display, c.toNat < 128) ∧
        (a.display.head? = some 32 ∨ a.display.getLast? = some 32 → ∃ c ∈ a.display, ¬ token c ∧ c ≠ 32) := by
      intro f; cases f <;> decide +kernel
    exact h
  params := by
    have h : ∀ f, ∀ a ∈ relaySample.addrs f, ∀ p ∈ a.param, (∀ c ∈ p.2, c.toNat < 128) ∧
        (32 ∈ p.2 → ∃ c ∈ p.2, ¬ token c ∧ c ≠ 32) := by
      intro f; cases f <;> decide +kernel
    exact h
  from_ := by decide
  to := by decide
  callID := by decide
  cseqMethod := by decide
  numbers := by decide
  hdr := by intro f; cases f <;> decide
  xheader := by decide +kernel
  payload := by rintro p ⟨⟩; decide

example : parseMsg (relaySample.text []) = .ok relaySample :=
  C77_unchanged_partial [] relaySample_read relaySample_ok (by decide) (by decide) (by decide +kernel) rfl rfl

/-- Messages that each lack one of the conditions of `Relayable`: a status below 100, an escaped percent sign in the
phrase, an IPv6 address in a Via, a quoted value with only a space between tokens, one with a letter outside of ASCII, a
quoted display name that begins with a space, an ampersand in a header of a URI, no From, no CSeq, a number of `2^63`, a
value that begins with a second continuation of the line, a body without a type. -/
def relayLost : List Bytes :=
  [b!"SIP/2.0 099 x\r\nf:sip:a\r\nt:sip:a\r\ni:b\r\nCSeq: 1 X\r\n\r\n",
   b!"SIP/2.0 200 100%25\r\nf:sip:a\r\nt:sip:a\r\ni:b\r\nCSeq: 1 X\r\n\r\n",
   b!"SIP/2.0 200 OK\r\nv: SIP/2.0/UDP [::1]\r\nf:sip:a\r\nt:sip:a\r\ni:b\r\nCSeq: 1 X\r\n\r\n",
   b!"SIP/2.0 200 OK\r\nf:sip:a;x=\"y z\"\r\nt:sip:a\r\ni:b\r\nCSeq: 1 X\r\n\r\n",
   b!"SIP/2.0 200 OK\r\nf:sip:a;x=\"" ++ [195, 188] ++ b!"\"\r\nt:sip:a\r\ni:b\r\nCSeq: 1 X\r\n\r\n",
   b!"SIP/2.0 200 OK\r\nf:\" a\" <sip:a>\r\nt:sip:a\r\ni:b\r\nCSeq: 1 X\r\n\r\n",
   b!"SIP/2.0 200 OK\r\nf:<sip:a?x=%26>\r\nt:sip:a\r\ni:b\r\nCSeq: 1 X\r\n\r\n",
   b!"SIP/2.0 200 OK\r\nt:sip:a\r\ni:b\r\nCSeq: 1 X\r\n\r\n",
   b!"SIP/2.0 200 OK\r\nf:sip:a\r\nt:sip:a\r\ni:b\r\n\r\n",
   b!"SIP/2.0 200 OK\r\nf:sip:a\r\nt:sip:a\r\ni:b\r\nCSeq: 9223372036854775808 X\r\n\r\n",
   b!"SIP/2.0 200 OK\r\nf:sip:a\r\nt:sip:a\r\ni:b\r\nCSeq: 1 X\r\nX:\r\n \r\n y\r\n\r\n",
   b!"SIP/2.0 200 OK\r\nf:sip:a\r\nt:sip:a\r\ni:b\r\nCSeq: 1 X\r\nl: 2\r\n\r\nhi"]

/-- **C77 does not hold for all messages that are read.** -/
theorem C77_conditions_needed : ∀ d ∈ relayLost, ∃ m, parseMsg d = .ok m ∧ parseMsg (m.text []) ≠ .ok (readBack m) := by
  have h : relayLost.all (fun d => match parseMsg d with
      | .ok m => !decide (parseMsg (m.text []) = .ok (readBack m))
      | _ => false) = true := by decide +kernel
  intro d hd
  have := List.all_eq_true.1 h d hd
  split at this
  case h_1 m e => exact ⟨m, e, by simpa using this⟩
  case h_2 => cases this

end Gosip.Props
