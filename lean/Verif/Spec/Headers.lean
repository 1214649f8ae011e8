import Verif.Spec.Uri
import Verif.Sip.Msg

/-!
# Specification: header names

The names of the SIP header fields the library knows and the field of the message each of them stands for,
written from RFC 3261 section 20 (table 2 and the compact forms of section 7.3.3) and the registered compact
forms of RFC 3265 (`o`, `u`), RFC 3515 (`r`), RFC 3841 (`a`) and RFC 3892 (`b`); `P-Asserted-Identity` and
`Remote-Party-ID` as in `sip/msg.go:75,82`.
-/

namespace Gosip.Spec
open Gosip.Sip

/-- What a header name stands for. -/
inductive Header where
  | text (f : SField)
  | address (f : AField)
  | via | callID | cseq | contentType | contentLength | expires | maxForwards | minExpires
  deriving DecidableEq, Repr

/-- Known names, in lower case. -/
def headerNames : List (Bytes × Header) :=
  [(b!"accept", .text .accept),
   (b!"accept-contact", .text .acceptContact), (b!"a", .text .acceptContact),
   (b!"accept-encoding", .text .acceptEncoding),
   (b!"accept-language", .text .acceptLanguage),
   (b!"alert-info", .text .alertInfo),
   (b!"allow", .text .allow),
   (b!"allow-events", .text .allowEvents), (b!"u", .text .allowEvents),
   (b!"authentication-info", .text .authenticationInfo),
   (b!"authorization", .text .authorization),
   (b!"call-id", .callID), (b!"i", .callID),
   (b!"call-info", .text .callInfo),
   (b!"contact", .address .contact), (b!"m", .address .contact),
   (b!"content-disposition", .text .contentDisposition),
   (b!"content-encoding", .text .contentEncoding), (b!"e", .text .contentEncoding),
   (b!"content-language", .text .contentLanguage),
   (b!"content-length", .contentLength), (b!"l", .contentLength),
   (b!"content-type", .contentType), (b!"c", .contentType),
   (b!"cseq", .cseq),
   (b!"date", .text .date),
   (b!"error-info", .text .errorInfo),
   (b!"event", .text .event), (b!"o", .text .event),
   (b!"expires", .expires),
   (b!"from", .address .from), (b!"f", .address .from),
   (b!"in-reply-to", .text .inReplyTo),
   (b!"max-forwards", .maxForwards),
   (b!"mime-version", .text .mimeVersion),
   (b!"min-expires", .minExpires),
   (b!"organization", .text .organization),
   (b!"p-asserted-identity", .address .pAssertedIdentity),
   (b!"priority", .text .priority),
   (b!"proxy-authenticate", .text .proxyAuthenticate),
   (b!"proxy-authorization", .text .proxyAuthorization),
   (b!"proxy-require", .text .proxyRequire),
   (b!"record-route", .address .recordRoute),
   (b!"refer-to", .text .referTo), (b!"r", .text .referTo),
   (b!"referred-by", .text .referredBy), (b!"b", .text .referredBy),
   (b!"remote-party-id", .address .remotePartyID),
   (b!"reply-to", .text .replyTo),
   (b!"require", .text .require),
   (b!"retry-after", .text .retryAfter),
   (b!"route", .address .route),
   (b!"server", .text .server),
   (b!"subject", .text .subject), (b!"s", .text .subject),
   (b!"supported", .text .supported), (b!"k", .text .supported),
   (b!"timestamp", .text .timestamp),
   (b!"to", .address .to), (b!"t", .address .to),
   (b!"unsupported", .text .unsupported),
   (b!"user-agent", .text .userAgent),
   (b!"via", .via), (b!"v", .via),
   (b!"warning", .text .warning),
   (b!"www-authenticate", .text .wwwAuthenticate)]

/-- The header a name stands for, whatever the case of its letters; `none` for the name of an extension. -/
def headerOf (n : Bytes) : Option Header := headerNames.lookup (n.map lower)

/-- A name with which a known name begins, without being one. -/
def StubName (n : Bytes) : Prop := headerOf n = none ∧ ∃ p ∈ headerNames, n.map lower <+: p.1

/-- A header name: a token. -/
def IsName (n : Bytes) : Prop := n ≠ [] ∧ ∀ c ∈ n, token c

/-- Spaces and tabs. -/
def Blanks (w : Bytes) : Prop := ∀ c ∈ w, c = 32 ∨ c = 9

/-- A header line: name, blanks, colon, and the rest. -/
def headerLine (n w v : Bytes) : Bytes := n ++ w ++ b!":" ++ v

end Gosip.Spec
