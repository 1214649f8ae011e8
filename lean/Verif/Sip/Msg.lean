import Verif.Sip.Uri
import Verif.Sdp.Sdp

/-!
# SIP messages: data types and serialisation

`sip/msg.go`, `sip/addr.go`, `sip/via.go`, `sip/payload.go`, `sip/status.go`.
The linked lists `Addr.Next` and `Via.Next` are `List`s in order; a nil pointer is `[]`.
-/

namespace Gosip.Sip

/-- `Via` without `Next` (`sip/via.go:27-35`). -/
structure Via where
  protocol : Bytes := []
  version : Bytes := []
  transport : Bytes := []
  host : Bytes := []
  port : UInt16 := 0
  param : Pairs := []
  deriving DecidableEq, Repr

/-- `Addr` without `Next` (`sip/addr.go:42-47`); `none` is a nil `Uri`. -/
structure Addr where
  uri : Option URI := none
  display : Bytes := []
  param : Pairs := []
  deriving DecidableEq, Repr

/-- Selector of the fields of `Msg` of type `*Addr` (`sip/msg.go:41-46,75,82`). -/
inductive AField where
  | from | to | route | recordRoute | contact | pAssertedIdentity | remotePartyID
  deriving DecidableEq, Repr

/-- Selector of the header fields of `Msg` of type `string` that the parser fills through the pointer
`value` (`sip/msg.go:51-92`, `sip/sip.rl:450-486`). -/
inductive SField where
  | accept | acceptContact | acceptEncoding | acceptLanguage | alertInfo | allow | allowEvents
  | authenticationInfo | authorization | callInfo | contentDisposition | contentEncoding
  | contentLanguage | date | errorInfo | event | inReplyTo | mimeVersion | organization | priority
  | proxyAuthenticate | proxyAuthorization | proxyRequire | referTo | referredBy | replyTo | require
  | retryAfter | server | subject | supported | timestamp | unsupported | userAgent | warning
  | wwwAuthenticate
  deriving DecidableEq, Repr

/-- All selectors. -/
def AField.all : List AField :=
  [.from, .to, .route, .recordRoute, .contact, .pAssertedIdentity, .remotePartyID]

@[inherit_doc AField.all] def SField.all : List SField :=
  [.accept, .acceptContact, .acceptEncoding, .acceptLanguage, .alertInfo, .allow, .allowEvents,
   .authenticationInfo, .authorization, .callInfo, .contentDisposition, .contentEncoding,
   .contentLanguage, .date, .errorInfo, .event, .inReplyTo, .mimeVersion, .organization, .priority,
   .proxyAuthenticate, .proxyAuthorization, .proxyRequire, .referTo, .referredBy, .replyTo, .require,
   .retryAfter, .server, .subject, .supported, .timestamp, .unsupported, .userAgent, .warning,
   .wwwAuthenticate]

theorem AField.mem_all (f : AField) : f ∈ AField.all := by cases f <;> decide
theorem SField.mem_all (f : SField) : f ∈ SField.all := by cases f <;> decide

instance {β : Type} [DecidableEq β] : DecidableEq (AField → β) := fun f g =>
  if h : ∀ x ∈ AField.all, f x = g x then .isTrue (funext fun x => h x x.mem_all)
  else .isFalse fun e => h fun _ _ => by rw [e]

instance {β : Type} [DecidableEq β] : DecidableEq (SField → β) := fun f g =>
  if h : ∀ x ∈ SField.all, f x = g x then .isTrue (funext fun x => h x x.mem_all)
  else .isFalse fun e => h fun _ _ => by rw [e]

/-- Values of the interface `Payload` (`sip/payload.go:17-33`, `sdp/sdp.go:277-288`). -/
inductive Payload where
  | sdp (d : Sdp.SDP)
  | misc (t d : Bytes)
  deriving DecidableEq

/-- `Msg` (`sip/msg.go:27-96`). The seven address lists are one function from their selector, the 36
string headers another. `SourceAddr` is a pair of the address text and the port. -/
structure Msg where
  versionMajor : UInt8 := 0
  versionMinor : UInt8 := 0
  method : Bytes := []
  request : Option URI := none
  status : Int := 0
  phrase : Bytes := []
  payload : Option Payload := none
  sourceAddr : Option (Bytes × UInt16) := none
  addrs : AField → List Addr := fun _ => []
  via : List Via := []
  callID : Bytes := []
  cseq : Int := 0
  cseqMethod : Bytes := []
  maxForwards : Int := 0
  expires : Int := 0
  minExpires : Int := 0
  hdr : SField → Bytes := fun _ => []
  xheader : Pairs := []

/-- Equality of messages is decidable, field by field. -/
instance : DecidableEq Msg := fun a b =>
  decidable_of_iff (a.versionMajor = b.versionMajor ∧
    a.versionMinor = b.versionMinor ∧
    a.method = b.method ∧
    a.request = b.request ∧
    a.status = b.status ∧
    a.phrase = b.phrase ∧
    a.payload = b.payload ∧
    a.sourceAddr = b.sourceAddr ∧
    a.addrs = b.addrs ∧
    a.via = b.via ∧
    a.callID = b.callID ∧
    a.cseq = b.cseq ∧
    a.cseqMethod = b.cseqMethod ∧
    a.maxForwards = b.maxForwards ∧
    a.expires = b.expires ∧
    a.minExpires = b.minExpires ∧
    a.hdr = b.hdr ∧
    a.xheader = b.xheader)
    ⟨fun h => by cases a; cases b; simp only [Msg.mk.injEq]; exact h,
     fun h => by subst h; simp⟩

/-- Assignment to a field chosen by its selector. -/
def setAt {α β : Type} [DecidableEq α] (f : α → β) (a : α) (v : β) : α → β :=
  fun x => if x = a then v else f x

@[simp] theorem setAt_same {α β : Type} [DecidableEq α] (f : α → β) (a : α) (v : β) :
    setAt f a v a = v := by simp [setAt]

theorem setAt_ne {α β : Type} [DecidableEq α] (f : α → β) {a b : α} (v : β) (h : b ≠ a) :
    setAt f a v b = f b := by simp [setAt, h]

/-- `Msg.IsResponse` (`sip/msg.go:100-102`). -/
def Msg.isResponse (m : Msg) : Bool := m.status > 0

/-- `phrases` (`sip/status.go:118-190`). -/
def phrases : List (Int × Bytes) :=
  [(100, b!"Trying"), (180, b!"Ringing"), (181, b!"Call Is Being Forwarded"),
   (182, b!"Queued"), (183, b!"Session Progress"), (200, b!"OK"),
   (202, b!"Accepted"), (204, b!"No Notification"), (300, b!"Multiple Choices"),
   (301, b!"Moved Permanently"), (302, b!"Moved Temporarily"), (305, b!"Use Proxy"),
   (380, b!"Alternative Service"), (400, b!"Bad Request"), (401, b!"Unauthorized"),
   (402, b!"Payment Required"), (403, b!"Forbidden"), (404, b!"Not Found"),
   (405, b!"Method Not Allowed"), (406, b!"Not Acceptable"), (407, b!"Proxy Authentication Required"),
   (408, b!"Request Timeout"), (409, b!"Conflict"), (410, b!"Gone"),
   (411, b!"Length Required"), (412, b!"Conditional Request Failed"), (413, b!"Request Entity Too Large"),
   (414, b!"Request-URI Too Long"), (415, b!"Unsupported Media Type"), (416, b!"Unsupported URI Scheme"),
   (417, b!"Unknown Resource-Priority"), (420, b!"Bad Extension"), (421, b!"Extension Required"),
   (422, b!"Session Interval Too Small"), (423, b!"Interval Too Brief"), (428, b!"Use Identity Header"),
   (429, b!"Provide Referrer Identity"), (430, b!"Flow Failed"), (433, b!"Anonymity Disallowed"),
   (436, b!"Bad Identity-Info"), (437, b!"Unsupported Certificate"), (438, b!"Invalid Identity Header"),
   (439, b!"First Hop Lacks Outbound Support"), (440, b!"Max-Breadth Exceeded"), (470, b!"Consent Needed"),
   (480, b!"Temporarily Unavailable"), (481, b!"Call/Transaction Does Not Exist"), (482, b!"Loop Detected"),
   (483, b!"Too Many Hops"), (484, b!"Address StatusIncomplete"), (485, b!"Ambiguous"),
   (486, b!"Busy Here"), (487, b!"Request Terminated"), (488, b!"Not Acceptable Here"),
   (489, b!"Bad Event"), (491, b!"Request Pending"), (493, b!"Undecipherable"),
   (494, b!"Security Agreement Required"), (500, b!"Internal Server Error"), (501, b!"Not Implemented"),
   (502, b!"Bad Gateway"), (503, b!"Service Unavailable"), (504, b!"Gateway Time-out"),
   (505, b!"Version Not Supported"), (513, b!"Message Too Large"), (580, b!"Precondition Failure"),
   (600, b!"Busy Everywhere"), (603, b!"Decline"), (604, b!"Does Not Exist Anywhere"),
   (606, b!"Not Acceptable"), (687, b!"Dialog Terminated")]

/-- `Phrase` (`sip/status.go:111-116`). -/
def phraseOf (status : Int) : Bytes := (phrases.lookup status).getD b!"Unknown Status Code"

/-! ### Serialisation -/

/-- `Via.Append` (`sip/via.go:37-62`). -/
def Via.text (v : Via) : Bytes :=
  (if v.protocol = [] then b!"SIP/" else v.protocol ++ b!"/") ++
  (if v.version = [] then b!"2.0/" else v.version ++ b!"/") ++
  (if v.transport = [] then b!"UDP " else v.transport ++ b!" ") ++ v.host ++
  (if v.port ≠ 5060 then b!":" ++ itoa v.port.toNat else []) ++ paramText v.param

/-- One element of `Addr.Append` (`sip/addr.go:74-81`); `URI.Append` on nil writes nothing. -/
def Addr.text (a : Addr) : Bytes :=
  (if a.display ≠ [] then quoted a.display ++ b!" " else []) ++ b!"<" ++
  (match a.uri with | some u => u.text | none => []) ++ b!">" ++ paramText a.param

/-- `Addr.Append` (`sip/addr.go:70-87`) on a list; nothing for a nil pointer. -/
def addrsText : List Addr → Bytes
  | [] => []
  | [a] => a.text
  | a :: l => a.text ++ b!", " ++ addrsText l

/-- `Payload.ContentType` (`sip/payload.go:27-29`, `sdp/sdp.go:81,277-279`). -/
def Payload.contentType : Payload → Bytes
  | .sdp _ => b!"application/sdp"
  | .misc t _ => t

/-- `Payload.Data` (`sip/payload.go:31-33`, `sdp/sdp.go:281-288`); `gen` is the random origin id. -/
def Payload.data (gen : Bytes) : Payload → Bytes
  | .sdp d => d.text gen
  | .misc _ d => d

/-- A header line with a string value, written only when the value is not empty. -/
def strLine (name v : Bytes) : Bytes := if v ≠ [] then name ++ b!": " ++ v ++ b!"\r\n" else []

/-- A header line with an address list, written only when the pointer is not nil. -/
def addrLine (name : Bytes) (l : List Addr) : Bytes :=
  if l ≠ [] then name ++ b!": " ++ addrsText l ++ b!"\r\n" else []

/-- `Msg.appendVersion` (`sip/msg.go:465-474`). -/
def versionText (m : Msg) : Bytes :=
  b!"SIP/" ++ (if m.versionMajor = 0 then b!"2.0"
    else natDec m.versionMajor.toNat ++ b!"." ++ natDec m.versionMinor.toNat)

/-- The start line written by `Msg.Append` (`sip/msg.go:134-160`). -/
def startLine (m : Msg) : Bytes :=
  if !m.isResponse then
    (if m.method = [] then b!"INVITE " else m.method ++ b!" ") ++
    (match m.request with | some u => u.text | none => b!"sip:www.nasa.gov:80") ++ b!" " ++
    versionText m ++ b!"\r\n"
  else
    versionText m ++ b!" " ++ itoa m.status ++ b!" " ++
    (if m.phrase = [] then phraseOf m.status else m.phrase) ++ b!"\r\n"

/-- The `Via` lines (`sip/msg.go:170-174`). -/
def viaLines (l : List Via) : Bytes := l.flatMap fun v => b!"Via: " ++ v.text ++ b!"\r\n"

/-- `Max-Forwards` (`sip/msg.go:210-218`). -/
def maxForwardsLine (m : Msg) : Bytes :=
  if !m.isResponse then
    if m.maxForwards = 0 then b!"Max-Forwards: 70\r\n"
    else b!"Max-Forwards: " ++ itoa m.maxForwards ++ b!"\r\n"
  else []

/-- `Expires` (`sip/msg.go:310-315`). -/
def expiresLine (m : Msg) : Bytes :=
  if m.expires > 0 ∨ m.method = b!"REGISTER" ∨ m.cseqMethod = b!"REGISTER" then
    b!"Expires: " ++ itoa m.expires ++ b!"\r\n"
  else []

/-- `Min-Expires` (`sip/msg.go:329-333`). -/
def minExpiresLine (m : Msg) : Bytes :=
  if m.minExpires > 0 then b!"Min-Expires: " ++ itoa m.minExpires ++ b!"\r\n" else []

/-- The header lines of `Msg.Append` (`sip/msg.go:162-449`), in order. `AcceptContact` is not written,
`RetryAfter` is written under the name `RetryAfter`. -/
def headerLines (m : Msg) : List Bytes :=
  [b!"From: " ++ addrsText (m.addrs .from) ++ b!"\r\n",
   b!"To: " ++ addrsText (m.addrs .to) ++ b!"\r\n",
   viaLines m.via,
   addrLine b!"Route" (m.addrs .route),
   addrLine b!"Record-Route" (m.addrs .recordRoute),
   addrLine b!"Contact" (m.addrs .contact),
   b!"Call-ID: " ++ m.callID ++ b!"\r\n",
   b!"CSeq: " ++ itoa m.cseq ++ b!" " ++ m.cseqMethod ++ b!"\r\n",
   strLine b!"User-Agent" (m.hdr .userAgent),
   maxForwardsLine m,
   strLine b!"Accept" (m.hdr .accept),
   strLine b!"Accept-Encoding" (m.hdr .acceptEncoding),
   strLine b!"Accept-Language" (m.hdr .acceptLanguage),
   strLine b!"Alert-Info" (m.hdr .alertInfo),
   strLine b!"Allow" (m.hdr .allow),
   strLine b!"Allow-Events" (m.hdr .allowEvents),
   strLine b!"Authentication-Info" (m.hdr .authenticationInfo),
   strLine b!"Authorization" (m.hdr .authorization),
   strLine b!"Call-Info" (m.hdr .callInfo),
   strLine b!"Content-Disposition" (m.hdr .contentDisposition),
   strLine b!"Content-Encoding" (m.hdr .contentEncoding),
   strLine b!"Content-Language" (m.hdr .contentLanguage),
   strLine b!"Date" (m.hdr .date),
   strLine b!"Error-Info" (m.hdr .errorInfo),
   strLine b!"Event" (m.hdr .event),
   expiresLine m,
   strLine b!"In-Reply-To" (m.hdr .inReplyTo),
   strLine b!"MIME-Version" (m.hdr .mimeVersion),
   minExpiresLine m,
   strLine b!"Organization" (m.hdr .organization),
   addrLine b!"P-Asserted-Identity" (m.addrs .pAssertedIdentity),
   strLine b!"Priority" (m.hdr .priority),
   strLine b!"Proxy-Authenticate" (m.hdr .proxyAuthenticate),
   strLine b!"Proxy-Authorization" (m.hdr .proxyAuthorization),
   strLine b!"Proxy-Require" (m.hdr .proxyRequire),
   strLine b!"Refer-To" (m.hdr .referTo),
   strLine b!"Referred-By" (m.hdr .referredBy),
   addrLine b!"Remote-Party-ID" (m.addrs .remotePartyID),
   strLine b!"Reply-To" (m.hdr .replyTo),
   strLine b!"Require" (m.hdr .require),
   strLine b!"RetryAfter" (m.hdr .retryAfter),
   strLine b!"Server" (m.hdr .server),
   strLine b!"Subject" (m.hdr .subject),
   strLine b!"Supported" (m.hdr .supported),
   strLine b!"Timestamp" (m.hdr .timestamp),
   strLine b!"Unsupported" (m.hdr .unsupported),
   strLine b!"Warning" (m.hdr .warning),
   strLine b!"WWW-Authenticate" (m.hdr .wwwAuthenticate),
   xheaderText m.xheader]

/-- The end of `Msg.Append` (`sip/msg.go:451-462`). -/
def payloadText (gen : Bytes) : Option Payload → Bytes
  | some p => b!"Content-Type: " ++ p.contentType ++ b!"\r\n" ++
      b!"Content-Length: " ++ itoa (p.data gen).length ++ b!"\r\n\r\n" ++ p.data gen
  | none => b!"Content-Length: 0\r\n\r\n"

/-- `Msg.Append` / `Msg.String` (`sip/msg.go:104-108,130-463`) on a non-nil message. The assignment to
`msg.Phrase` of line 152 is `Msg.appended`. -/
def Msg.text (gen : Bytes) (m : Msg) : Bytes :=
  startLine m ++ (headerLines m).flatten ++ payloadText gen m.payload

/-- The message after `Msg.Append`: an empty phrase of a response has been filled in
(`sip/msg.go:151-153`). -/
def Msg.appended (m : Msg) : Msg :=
  if m.isResponse ∧ m.phrase = [] then { m with phrase := phraseOf m.status } else m

end Gosip.Sip
