import Verif.Sip.GrMsg
import Verif.Props.Headers

/-!
# Property C76: exactly the messages of the grammar are accepted, with the meaning the grammar gives them

The grammar is `Spec.MessageText` (`Spec/Grammar.lean`), which says of a text and a message whether the one is a
text of the other.
-/

namespace Gosip.Props
open Sip Spec MsgM

/-- A text is accepted, and read as `m`, exactly if the grammar says that it is a text of `m`. -/
theorem C76_message_grammar (d : Bytes) (m : Msg) : parseMsg d = .ok m ↔ MessageText d m :=
  Gr.parse_grammar d m

/-- A text has at most one meaning. -/
theorem C76_unambiguous {d : Bytes} {m m' : Msg} (h : MessageText d m) (h' : MessageText d m') : m = m' := by
  have := ((C76_message_grammar d m).2 h).symm.trans ((C76_message_grammar d m').2 h')
  simpa using this

/-- An error is returned exactly for the texts that are not in the grammar. -/
theorem C76_rejects (d : Bytes) : (∃ e, parseMsg d = .err e) ↔ ∀ m, ¬ MessageText d m := by
  constructor
  · rintro ⟨e, h⟩ m hm
    rw [(C76_message_grammar d m).2 hm] at h
    cases h
  · intro h
    rcases C07_parseMsg_never_panics d with ⟨m, hm⟩ | he
    · exact absurd ((C76_message_grammar d m).1 hm) (h m)
    · exact he

/-! ## The grammar is not empty, and not everything -/

/-- A request with folded lines, lists, compact names, quoted strings and a body. -/
example : ∃ m, MessageText (b!"INVITE sip:bob@example.com SIP/2.0\r\nv: SIP/2.0/UDP 10.0.0.1:5060;branch=z9hG4bK1 ,\r\n" ++
      b!" SIP / 2.0 / UDP [::1];rport\r\nf: \"A \\\" B\" <sip:a@b>;tag=1\r\nTo: Bob Barker <sip:bob@example.com>\r\n" ++
      b!"Call-ID: x@y\r\nCSeq: 17\r\n INVITE\r\nX-Test: folded\r\n value\r\nc: text/plain;charset=utf-8\r\nContent-Length: 2\r\n\r\nhi") m ∧
    m.method = b!"INVITE" ∧ m.via.map (·.host) = [b!"10.0.0.1", b!"::1"] ∧ m.via.map (·.port) = [5060, 0] ∧
    (m.addrs .from).map (·.display) = [b!"A \" B"] ∧ (m.addrs .to).map (·.display) = [b!"Bob Barker"] ∧ m.cseq = 17 ∧
    m.payload = some (.misc b!"text/plain" b!"hi") := by
  have h : (match parseMsg (b!"INVITE sip:bob@example.com SIP/2.0\r\nv: SIP/2.0/UDP 10.0.0.1:5060;branch=z9hG4bK1 ,\r\n" ++
      b!" SIP / 2.0 / UDP [::1];rport\r\nf: \"A \\\" B\" <sip:a@b>;tag=1\r\nTo: Bob Barker <sip:bob@example.com>\r\n" ++
      b!"Call-ID: x@y\r\nCSeq: 17\r\n INVITE\r\nX-Test: folded\r\n value\r\nc: text/plain;charset=utf-8\r\nContent-Length: 2\r\n\r\nhi") with
      | .ok m => decide (m.method = b!"INVITE" ∧ m.via.map (·.host) = [b!"10.0.0.1", b!"::1"] ∧ m.via.map (·.port) = [5060, 0] ∧
          (m.addrs .from).map (·.display) = [b!"A \" B"] ∧ (m.addrs .to).map (·.display) = [b!"Bob Barker"] ∧ m.cseq = 17 ∧
          m.payload = some (.misc b!"text/plain" b!"hi"))
      | _ => false) = true := by decide +kernel
  split at h
  case h_1 m e => exact ⟨m, (C76_message_grammar _ _).1 e, of_decide_eq_true h⟩
  case h_2 => cases h

/-- A response. -/
example : MessageText b!"SIP/2.0 200 O%4b\r\n\r\n" { versionMajor := 2, status := 200, phrase := b!"OK" } := by
  refine ⟨b!"SIP/2.0 200 O%4b", [], [], _, _, rfl, (by rintro ⟨_, _, e, _⟩; cases e), plain_ok (by decide +kernel), ?_, .nil,
    .inl ⟨by simp, rfl⟩⟩
  refine StartText.response (v := b!"SIP/2.0") (ds := b!"200") (t := b!"O%4b") (.mk (a := b!"2") (b := b!"0") ?_ ?_) ?_ rfl
    (by simp) (.char (by decide) (.esc (x := 4) (y := 11) rfl rfl .nil))
  all_goals exact ⟨by simp, by decide +kernel⟩

/-- Not in the grammar, although RFC 3261 allows them: a second address after a bare URI with a space behind the
comma, no space before the angle bracket, an empty reason phrase, a blank at the start of the body. -/
example : (∀ m, ¬ MessageText b!"SIP/2.0 200 OK\r\nContact: sip:a, sip:b\r\n\r\n" m) ∧
    (∀ m, ¬ MessageText b!"SIP/2.0 200 OK\r\nContact: Bob<sip:a>\r\n\r\n" m) ∧
    (∀ m, ¬ MessageText b!"SIP/2.0 200 \r\n\r\n" m) ∧
    ∀ m, ¬ MessageText b!"SIP/2.0 200 OK\r\nContent-Length: 2\r\n\r\n x" m := by
  have rej : ∀ d, (match parseMsg d with | .err _ => true | _ => false) = true → ∀ m, ¬ MessageText d m := by
    intro d h
    rw [← C76_rejects]
    split at h
    case h_1 e he => exact ⟨e, he⟩
    case h_2 => cases h
  refine ⟨rej _ ?_, rej _ ?_, rej _ ?_, rej _ ?_⟩ <;> decide +kernel

end Gosip.Props
