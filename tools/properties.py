#!/usr/bin/env python3
"""Source of /verif/properties.jsonl (run: python3 tools/properties.py > properties.jsonl)."""
import json
P = []
def p(title, statement, quantifier, why, anchors):
    P.append(dict(id='C%02d' % (len(P) + 1), title=title, statement=statement,
                  quantifier=quantifier, why_tests_cant=why, anchors=anchors))

p("ParseURI is total: never panics, always returns",
  "For every byte slice, ParseURI returns either a URI or an error after reading each byte at most once. It never indexes outside its scratch buffer, and so never panics on hostile input.",
  "every byte slice of every length and content",
  "The scratch buffer is exactly as long as the input; a run that appends more bytes than it consumed would panic, and only specially shaped inputs could do that. No finite list of inputs excludes it.",
  ["sip/uri_parse.go: ParseURI", "sip/uri_parse.rl", "sip/util.go: unhex"])
p("ParseURI accepts exactly the documented URI grammar and returns its components",
  "ParseURI(s) succeeds if and only if s is scheme ':' [user [':' password] '@'] host [':' port] *(';' name ['=' value]) ['?' name ['=' value] *('&' name ['=' value])] over the documented character classes; the result carries the lower-cased scheme and host, the percent-decoded user, password, parameters and headers (latest first) and the port number modulo 65536.",
  "every byte slice and every URI value",
  "The parser is 59 generated goto states in two copies (with and without '@'); tests visit a few dozen strings, while a misplaced transition only shows on strings nobody thought of.",
  ["sip/uri_parse.go: ParseURI", "sip/uri_parse.rl: uriSansUser, uriWithUser"])
p("URI round trip",
  "If a URI has a legal scheme and host, parsing its String() gives the same URI back, whatever bytes its user, password, parameter and header names and values contain.",
  "every URI value whose scheme and host are legal, all user/pass/param/header bytes",
  "The escaping sets of the writer and the character classes of the parser are written in two different files in two different languages; they must agree for all 256 bytes in each of five positions and in all combinations.",
  ["sip/uri.go: URI.Append, URI.String", "sip/uriparam.go: Append", "sip/uriheader.go: Append", "sip/uri_parse.go: ParseURI", "sip/escape.go"])
p("A serialised URI cannot be used to inject delimiters",
  "Text placed in the user, password, URI parameters or URI headers is escaped so that none of CR, LF, space, '<', '>', '@' (and, in each position, its own delimiters) appear unescaped in the output.",
  "every byte string used as user, password, parameter or header",
  "Injection attacks use exactly the bytes a test author did not list.",
  ["sip/escape.go: appendEscaped", "sip/charsets.go", "sip/uri.go: Append"])
p("Percent escaping is the inverse of unescaping",
  "For each predicate that rejects '%', decoding the escaped form of any byte string gives the string back, and the escaped form contains only bytes accepted by the predicate, '%' and lower-case hexadecimal digits.",
  "every byte string and every character predicate",
  "All 256 byte values in all contexts and all lengths.",
  ["sip/escape.go: appendEscaped", "sip/util.go: unhex"])
p("The bit-mask character sets are the RFC 3261 sets",
  "tokenc, qdtextc, userc, passc, paramc and headerc, computed from two 64-bit masks filled at init, contain exactly the bytes listed by the RFC 3261 section 25.1 productions the source names (and nothing above 127).",
  "every byte value, for each of the six sets",
  "The property is about the masks built by init loops with shifts; a wrong shift or range bound is invisible unless all bytes are examined against an independent definition.",
  ["sip/charsets.go: init, charsetAdd, charsetAddRange, charsetContains"])
p("ParseMsg never panics",
  "For every byte slice, ParseMsg performs no out-of-range index or slice, and no nil pointer dereference: it returns a message or an error.",
  "every byte slice",
  "The parser is 782 generated goto states with look-ahead, hold and backtracking, sharing a mark, a buffer and several pointers; whether each pointer is set and each slice is ordered on every path can only be established by an invariant over all states.",
  ["sip/msg_parse.go: ParseMsg", "sip/sip.rl"])
p("ParseMsg always terminates",
  "For every byte slice ParseMsg stops; the hold and backtrack jumps never form a loop that consumes no input.",
  "every byte slice",
  "fhold/fexec jumps re-read input. A cycle of them is an endless loop (a remote denial of service) triggered by one unlucky string.",
  ["sip/msg_parse.go: ParseMsg", "sip/sip.rl: hold, backtrack, gxh"])
p("Parsed header text cannot smuggle a line break",
  "In every message ParseMsg returns, each textual header value (including extension headers, the Call-ID and the methods) contains CR or LF only as part of a CR LF followed by a space or tab (a folded line); tokens contain only token characters. So re-serialising or logging a value cannot start a new header.",
  "every byte slice accepted by ParseMsg, every header of the result",
  "Header injection is about inputs chosen by an attacker.",
  ["sip/msg_parse.go: ParseMsg", "sip/sip.rl: hval, value, token"])
p("Every accepted message is either a request with a URI or a response with a status",
  "A message returned by ParseMsg either has a non-empty method, a non-nil request URI and status 0, or has no method, no request URI and a status in 100..999; every address in it has a non-nil URI.",
  "every byte slice accepted by ParseMsg",
  "All later code dereferences Request and Addr.Uri relying on this; it must hold for every accepted input.",
  ["sip/msg_parse.go: ParseMsg", "sip/msg.go: IsResponse", "sip/addr.go: Addr.Uri"])
p("Message body is exactly the bytes after the blank line, checked against Content-Length",
  "If a message with a positive Content-Length is accepted then the declared length equals the number of bytes after the blank line, and a non-SDP payload is exactly these bytes with the declared content type; if the lengths differ an error is returned.",
  "every byte slice",
  "Truncated, padded and contradictory lengths are unboundedly many.",
  ["sip/msg_parse.go: ParseMsg", "sip/payload.go: MiscPayload"])
p("Header names are case-insensitive",
  "Changing the case of letters in the name of a recognised header does not change the parsed message.",
  "every message, every recognised header name, every choice of letter cases",
  "Each of about 55 names has 2^n spellings through a generated trie of several hundred states.",
  ["sip/msg_parse.go", "sip/sip.rl: aname, sname, cheader"])
p("Repeated and comma separated address and Via headers keep their order",
  "Vias and addresses given in several headers of the same name, or separated by commas, appear in the message list in the order of the text.",
  "every number and grouping of headers and of comma separated items",
  "Unbounded lists; the list tail pointer is kept across headers.",
  ["sip/sip.rl: Via, Addr, lastAddr", "sip/msg_parse.go"])
p("Message round trip",
  "Serialising a well-formed message and parsing the result gives the message back.",
  "every message whose fields are well formed, any number of Vias, addresses, parameters and extension headers, any payload bytes",
  "A message has some 60 fields and unbounded lists; equality must hold for all combinations, and the writer and the generated parser must agree on quoting, escaping, defaults and ordering.",
  ["sip/msg.go: Msg.Append", "sip/msg_parse.go: ParseMsg"])
p("Address and Via parameters round trip through quoting",
  "A parameter value or display name written by the library is read back unchanged.",
  "every byte string used as a parameter value or display name",
  "The decision whether to quote, the escapes inside quotes and the parser's quoted-string states must agree for every byte.",
  ["sip/quote.go: appendQuoted, appendQuoteQuoted", "sip/param.go: Append", "sip/addr.go: Append"])
p("A quoted string never breaks out of its quotes or its line",
  "The text written for a parameter value or display name contains no unescaped '\"' inside the quotes and no CR except in CR LF followed by space or tab; it always ends with the closing quote.",
  "every byte string",
  "Same reason as for injection: adversarial bytes.",
  ["sip/quote.go"])
p("Parameter lookup is case-insensitive and returns the latest entry",
  "Get(name) on URI parameters, URI headers, address/Via parameters and extension headers returns the most recently added entry whose name equals the given one ignoring ASCII case, or nil exactly when there is none.",
  "every list and every name",
  "Lists of any length with duplicate and differently cased names.",
  ["sip/param.go: Get", "sip/uriparam.go: Get", "sip/uriheader.go: Get", "sip/xheader.go: Get"])
p("Serialisation keeps insertion order",
  "URI parameters, URI headers, address/Via parameters and extension headers are written in the order in which they were added, although they are stored latest first.",
  "every list",
  "Unbounded lists; recursion on Next.",
  ["sip/param.go: Append", "sip/uriparam.go: Append", "sip/uriheader.go: Append", "sip/xheader.go: Append"])
p("sdp.Parse is total",
  "For every string, sdp.Parse returns a description or an error: no slice or index is ever out of range (rtpmap/fmtp arrays, attribute capacity, line prefixes).",
  "every string",
  "The attribute list is grown by re-slicing up to a capacity computed from the number of lines, and arrays are indexed by counters: overflow would need a special shape of description.",
  ["sdp/sdp.go: Parse, populateCodecs, parseRtpmapInfo, parseMediaInfo, parseConnLine, parseOriginLine"])
p("A parsed SDP is usable",
  "Every description returned by sdp.Parse has an origin and a connection address that is not multicast, at least one of audio and video, and at least one codec per media; each codec has a non-empty name.",
  "every string accepted by sdp.Parse",
  "Callers use these fields without checks.",
  ["sdp/sdp.go: Parse, populateCodecs"])
p("Codec order and payload types follow the m= line",
  "The codecs of a parsed media are in one-to-one, order-preserving correspondence with the payload types on the m= line; each one is described by the first rtpmap with its number, and by the IANA table only when there is none (or it gives no name).",
  "every string accepted by sdp.Parse",
  "Any number of payload types and rtpmap lines in any order.",
  ["sdp/sdp.go: populateCodecs, parseMediaInfo", "sdp/codecs.go: StandardCodecs"])
p("SDP round trip",
  "Parsing the serialised form of a well-formed description gives the description back.",
  "every well-formed description: any codecs, attributes and unknown fields",
  "Unbounded lists and arbitrary text fields; the text format is line and space separated, so the property depends on which bytes the fields contain.",
  ["sdp/sdp.go: Append, Parse", "sdp/media.go: Append", "sdp/codec.go: Append", "sdp/origin.go: Append"])
p("RTP headers round trip and have the RFC 3550 layout",
  "Writing a header appends exactly 12 bytes whose fields are at the RFC 3550 bit positions, and reading them back gives the same header (payload type modulo 128).",
  "every header: all flags, payload types, sequence numbers, timestamps and SSRCs",
  "2^90 headers.",
  ["rtp/rtp.go: Header.Write, Header.Read"])
p("RTP header reading is total and rejects what it cannot represent",
  "Read returns an error exactly when the packet is shorter than 12 bytes, its version is not 2 or it carries a header extension; it never indexes past the slice, and on error leaves the header unchanged.",
  "every byte slice",
  "Every length and first byte.",
  ["rtp/rtp.go: Header.Read"])
p("RFC 2833 event payloads round trip",
  "EventHeader.Write followed by Read gives the same event, end bit, reserved bit, volume modulo 64 and duration, and the two agree with the RFC 2833 layout.",
  "every event header",
  "2^34 values.",
  ["rtp/rtp.go: EventHeader.Write, EventHeader.Read"])
p("DTMF characters and event numbers correspond",
  "DtmfToChar and CharToDtmf are inverse to each other on 0..16 up to letter case, reject everything else, and agree with the table SendDTMF uses.",
  "every byte",
  "Three separately written tables must agree on all 256 bytes.",
  ["rtp/dtmf.go: DtmfToChar, CharToDtmf", "rtp/session.go: dtmfCodes"])
p("Sequence numbers and timestamps advance correctly over any history of sends",
  "Over any sequence of Send, SendRaw and SendDTMF calls, consecutive packets carry consecutive sequence numbers modulo 2^16, and a packet's timestamp is the start timestamp plus the number of samples sent before it modulo 2^32; DTMF does not move the timestamp.",
  "every history of calls, every frame content, every write outcome",
  "Wrap-around happens after 65536 packets; interleavings are unbounded.",
  ["rtp/session.go: Send, SendRaw, SendDTMF"])
p("A DTMF digit is sent as one well-formed RFC 2833 event",
  "SendDTMF of a valid digit writes start packets with growing durations, only the first of them marked, followed by exactly three identical end packets with the end bit, all with the same timestamp and event code; an invalid digit writes nothing.",
  "every digit byte, every session state",
  "Every starting sequence number/timestamp (including wrap-around) and every byte.",
  ["rtp/session.go: SendDTMF"])
p("Only complete ulaw frames reach the application",
  "The receiver delivers a frame exactly for the packets of 172 bytes with a valid version-2, extension-free header and payload type 0, in arrival order, and the samples are the ulaw decoding of bytes 12..171 of that packet; stale bytes of earlier packets are never used.",
  "every sequence of received packets",
  "The receive buffer is reused, so leftovers of a longer earlier packet are visible to a later short one; only an argument over all histories settles it.",
  ["rtp/session.go: receiver"])
p("ulaw compression is a faithful G.711 quantiser",
  "LinearToUlaw maps every 64-bit sample to a byte 0..255; UlawToLinear maps bytes to -32124..32124; re-encoding a decoded byte gives it back (except negative zero); encoding is odd-symmetric, monotone and its error is at most half the segment step; louder inputs saturate.",
  "every 64-bit linear sample and every ulaw byte",
  "The code is assembly with bit scans, checked against a table of 256 values only; the encoder has 2^64 inputs.",
  ["dsp/dsp_amd64.s: LinearToUlaw, UlawToLinear"])
p("Mixing is saturating addition of exactly 160 samples",
  "L16MixSat160 replaces each of the first 160 samples of dst by the sum with the corresponding sample of src clamped to the 16-bit range, and touches nothing else.",
  "every pair of frames and any surrounding memory",
  "2^5120 inputs; off-by-one in the loop count would overrun memory that a test does not look at.",
  ["dsp/dsp_amd64.s: L16MixSat160"])
p("The noise generator never leaves its table",
  "For every seed, every draw uses an index in 1..97 of the 98-entry table and the three generators stay in range, so the fallback value is never returned.",
  "every seed and any number of draws",
  "The state space has 259200*134456*243000 states.",
  ["dsp/awgn.go: NewAWGN_DBOV, ran1"])
p("RTP ports are even and in range",
  "The port Listen tries is even and lies in [16384, 32768] for every value of the random generator, every such port can come up; at most ten ports are tried, and only 'address already in use' leads to another try.",
  "every random stream and every outcome of binding",
  "Random draws cannot be enumerated by a test.",
  ["rtp/session.go: Listen"])
p("Responses echo the request's transaction",
  "NewResponse copies Via list, From, To, Call-ID, CSeq number and method and Record-Route unchanged, sets the status and its phrase, and carries no body, so the response matches the request it answers whenever the request's top Via has a branch and is its only Via.",
  "every request and status",
  "All messages with any header content.",
  ["dialog/messages.go: NewResponse, ResponseMatch", "sip/status.go: Phrase"])
p("ACK, CANCEL and BYE belong to the right transaction and dialog",
  "The ACK for a response carries its Call-ID, CSeq number, From, To, top Via only, and the reversed Record-Route; a CANCEL equals the INVITE in request URI, Call-ID, CSeq number, Via, From, To and Route; a BYE has a CSeq one larger than the last local one and goes to the remote Contact along the reversed Record-Route.",
  "every INVITE, response and local sequence counter",
  "All messages; lists of any length are reversed.",
  ["dialog/messages.go: NewAck, NewCancel, NewBye", "sip/addr.go: Reversed", "sip/via.go: Detach"])
p("Response matching accepts exactly the responses of the transaction",
  "ResponseMatch holds exactly when the message is a response with the request's CSeq number and method whose last Via has the same host and port and the same branch as the request's Via.",
  "every pair of messages, any Via lists",
  "All messages.",
  ["dialog/messages.go: ResponseMatch, AckMatch", "sip/via.go: Last, CompareHostPort, CompareBranch"])
p("Requests are routed according to RFC 3261 loose and strict routing",
  "For a request, the next hop is the first Route entry that is not ourselves, or the request URI when there is none; with a strict router the request URI is moved to the end of the route set, and nothing else of the route set is lost or reordered; routed REGISTERs are refused.",
  "every request, route set and local contact",
  "Route sets of any length with any mixture of loose and strict entries.",
  ["dialog/route.go: RouteMessage"])
p("Responses are routed back along the Via",
  "For a response, our own top Via is removed, and the next hop is the received/rport override of the then top Via or its sent-by; malformed rport values are reported as errors.",
  "every response and local Via",
  "All Via lists and parameter texts.",
  ["dialog/route.go: RouteMessage", "sip/via.go: CompareHostPort"])
p("Strict routing is undone at the receiving side",
  "When a request routed through a strict router reaches the host named by the (lr-marked) request URI, the original request URI and route set are restored.",
  "every request and route set",
  "Route sets of any length; sender and receiver code must be inverse.",
  ["dialog/receiver.go: fixMessagesFromStrictRouters", "dialog/route.go: RouteMessage"])
p("A datagram received from the network cannot crash the process",
  "For every datagram, the receiving loop either drops it or delivers a message; it never panics.",
  "every datagram and source address",
  "One malformed packet out of infinitely many suffices to kill the process.",
  ["dialog/receiver.go: ReceiveMessages, addReceived, addTimestamp, fixMessagesFromStrictRouters"])
p("Requests are stamped with their true source",
  "After reception, the top Via of a request leads a response back to the address the datagram came from (received/rport), unless the sender already supplied its own values.",
  "every request and source address",
  "All Via contents and addresses.",
  ["dialog/receiver.go: addReceived", "dialog/route.go: RouteMessage"])
p("Delivered messages are not changed by later traffic",
  "A message handed to the application keeps its contents when further datagrams are received.",
  "every sequence of datagrams",
  "Depends on aliasing between the reused receive buffer and slices stored in messages: only visible in multi-packet histories.",
  ["dialog/receiver.go: ReceiveMessages", "sip/msg_parse.go: value action, MiscPayload"])
p("PopulateMessage makes any request sendable",
  "After PopulateMessage a request has a Via with a branch, a Contact, To, From with a tag, non-empty Call-ID, CSeq method, positive Max-Forwards and User-Agent; what the caller had set is kept; responses are untouched.",
  "every message, Via and Contact",
  "All combinations of present and absent fields.",
  ["dialog/route.go: PopulateMessage"])
p("Copies are independent",
  "Mutating a Copy of a URI, address, Via or message through its fields never changes the original, and a Copy equals the original.",
  "every value and every later update",
  "Aliasing is only visible after mutation; documentation promises a deep copy.",
  ["sip/uri.go: Copy", "sip/addr.go: Copy", "sip/via.go: Copy", "sip/msg.go: Copy"])
p("Max-Forwards always decreases and never resets",
  "Each transmission of a request carries a Max-Forwards smaller than the stored one, and a request whose Max-Forwards has reached zero is not sent.",
  "every message and every history of sends",
  "Histories of retransmissions; the serialiser gives zero a special meaning.",
  ["dialog/transport.go: Send", "dialog/dialog.go: send", "sip/msg.go: Append"])
p("Call state seen by the application is monotone",
  "The states published for a call only move forward (proceeding, ringing, answered, hangup): after 'answered' the application sees only 'hangup', and 'answered' is seen at most once.",
  "every sequence of received messages, timers, socket errors and hang-up commands",
  "All event histories.",
  ["dialog/dialog.go: run, handleResponse, handleRequest, transition"])
p("Retransmissions are bounded and fail over to the next address",
  "A request is transmitted at most maxResends+1 times to each address; when an address does not answer, the next address from DNS is tried, and when all have been tried the application gets an error.",
  "every timer schedule, address list and response history",
  "All schedules.",
  ["dialog/dialog.go: popRoute, resendRequest, connect"])
p("The dialog ends cleanly",
  "Whenever the dialog loop ends, its sockets are closed, the receiving goroutines end and the three notification channels are closed.",
  "every schedule of the dialog goroutine and of the receiving goroutines",
  "Deadlocks between two goroutines over unbuffered channels depend on the schedule.",
  ["dialog/dialog.go: cleanup, cleanupSock, cleanupCSock", "dialog/receiver.go: ReceiveMessages"])
p("The RTP session ends cleanly",
  "Close, called while the application holds no frame, always returns, and the receiving goroutine ends, whatever it was doing.",
  "every schedule and every sequence of packets",
  "Schedule dependent.",
  ["rtp/session.go: Close, CloseAfterError, receiver"])
p("Every incoming request is answered as RFC 3261 requires",
  "A request of another call is answered 481; with another SIP version 505; with exhausted Max-Forwards 483; out of order 500; BYE and OPTIONS 200; re-INVITE 200, retransmitted until acknowledged; unknown methods 405; ACK is never answered.",
  "every request in every dialog state",
  "All messages in all states.",
  ["dialog/dialog.go: handleMessage, handleRequest, sendResponse, resendResponse"])
p("A final INVITE response is always acknowledged",
  "Every matching response with status at least 200 to our INVITE that names a Contact is acknowledged by an ACK with the same Call-ID and CSeq before anything else is sent, and without Contact it ends the call with an error.",
  "every response in every dialog state",
  "All messages in all states, including retransmitted 200s.",
  ["dialog/dialog.go: handleResponse", "dialog/messages.go: NewAck"])
p("The dialog cannot be crashed by the remote side",
  "No sequence of messages, socket errors and timers makes the dialog goroutine panic.",
  "every sequence of events",
  "Panics need particular combinations of missing headers, states and payloads.",
  ["dialog/dialog.go"])
p("Hanging up uses the right request",
  "Hang-up sends CANCEL for the INVITE before the call is answered and BYE with the next CSeq inside the dialog afterwards.",
  "every dialog history",
  "All histories.",
  ["dialog/dialog.go: sendHangup", "dialog/messages.go: NewCancel, NewBye"])
p("Generated identifiers have the required shape",
  "Branches start with the RFC 3261 magic cookie and, like tags and Call-IDs, consist of token characters; Call-IDs have the UUID version 4 layout; CSeq values are in 0..49999; distinct random bytes give distinct identifiers.",
  "every random stream",
  "Random inputs.",
  ["util/util.go: GenerateTag, GenerateBranch, GenerateCallID, GenerateCSeq, GenerateOriginID"])
p("SRV answers are tried in the order given",
  "RouteAddress returns, for a host name without port, one route per SRV record in the order of the answer; an IP address yields exactly itself with port 5060 by default, without any DNS query.",
  "every host, port and DNS answer",
  "Answers of any length.",
  ["dialog/route.go: RouteAddress"])
p("Parse errors point into the message",
  "The offset of a MsgParseError is a position inside the message, formatting it never panics, and the text shown contains the message itself.",
  "every byte slice rejected by ParseMsg and every offset",
  "All inputs.",
  ["sip/msgerror.go: MsgParseError.Error", "sip/msg_parse.go"])
p("Legal extension headers are accepted",
  "A message that parses still parses after a header line with any token as name, not one of the known header names, and any printable text as value is added; the header is stored as an extension header.",
  "every accepted message, every token that is not a known header name, every value",
  "The names collide with prefixes of known names in a table of several hundred states.",
  ["sip/msg_parse.rl", "sip/sip.rl", "sip/msg_parse.go: ParseMsg"])
p("Every request gets a branch of its own",
  "Two requests sent by the same transport or dialog do not carry the same Via branch, except an ACK or CANCEL that must repeat the one of its INVITE.",
  "every history of requests",
  "Histories; sharing of Via records between messages.",
  ["dialog/messages.go: PopulateMessage, NewRequest", "dialog/transport.go: Send"])
p("A dialog that ends tells the application why, once",
  "The last thing an application hears from a dialog before its channels are closed is one error or the state Hangup; it hears neither earlier, and nothing afterwards.",
  "every dialog history",
  "All histories and all points of failure.",
  ["dialog/dialog.go: run, handleMessage, handleResponse, handleRequest, send, popRoute, sendRequest, transition, cleanup"])
p("Compact header names mean the same as the long ones",
  "Writing a header with its one-letter name gives the same message as writing it with its full name, and a header changes the field it names and no other.",
  "every message, every header with a compact form, every value",
  "The names are leaves of a generated trie shared by all headers; only the combination with every other header shows a stray assignment.",
  ["sip/sip.rl: aname, sname, cheader", "sip/msg_parse.go: ParseMsg"])
p("Body bytes are opaque",
  "Whether a message is accepted does not depend on the bytes of its body beyond their number, unless the body is a session description, and the payload is these bytes.",
  "every message, every body",
  "Every byte string of a given length is a body; the look-ahead for continued lines sits at the border between head and body.",
  ["sip/msg_parse.go: ParseMsg", "sip/msg_parse.rl: lookAheadWSP"])
p("What the other side answers is what the application hears",
  "A 100 is reported as Proceeding and a 180 or 183 as Ringing; the first 200 to the INVITE is acknowledged and reported as Answered once, repetitions are acknowledged and not reported; a 200 to the BYE is reported as Hangup; a refusal is acknowledged and handed over as the error; success statuses are no errors; after 503 other servers are tried.",
  "every dialog history, every response to the last request",
  "Any history of responses, requests, timers and hang-ups may come before.",
  ["dialog/dialog.go: handleResponse, transition", "sip/errors.go: ResponseError"])
p("Media addresses come from the call, in order",
  "The media addresses an application receives are, in order, among those offered by messages of its own call, each at most once; an offer in a re-INVITE is reported before it is answered.",
  "every dialog history",
  "All histories, with messages of other calls in between.",
  ["dialog/dialog.go: handleResponse, handleRequest, checkSDP"])
p("A redirected call is tried at the new address",
  "After a 301 or 302 to the request in progress the response is acknowledged and the same request, with the same Call-ID, CSeq, From, To and body, is sent to the address in the Contact, with a new branch and without the old route.",
  "every dialog history, every redirecting response",
  "Histories; the redirected request may have been retransmitted, may be an INVITE or BYE.",
  ["dialog/dialog.go: handleResponse, sendRequest, popRoute, connect"])
p("Requests say truly where answers are to be sent",
  "The first Via and the Contact of a request, and a session description without address, name the local address of the socket the request is sent from.",
  "every dialog history, every network configuration",
  "Several interfaces, failover between servers.",
  ["dialog/dialog.go: connect, populate", "dialog/messages.go: PopulateMessage"])
p("A BYE of the other side ends the call",
  "A BYE of the call, in order, is answered 200, Hangup is published, and nothing is sent afterwards.",
  "every dialog history",
  "All histories.",
  ["dialog/dialog.go: handleRequest, transition"])
p("Strangers cannot disturb a call",
  "A message that belongs to another call, or a response to another request than the last, changes nothing of what the dialog does afterwards, apart from being answered; nor does a message that is refused for its version or its Max-Forwards.",
  "every dialog history, every such message, everything that happens afterwards",
  "Compares two unbounded histories.",
  ["dialog/dialog.go: handleMessage, handleResponse, handleRequest"])
p("A call that cannot be placed is reported",
  "If no address is found for the destination, or none can be dialled, the application is told so, after every address was tried once in order; nothing is sent and the channels are closed.",
  "every INVITE, every resolver and network",
  "Any number of addresses.",
  ["dialog/dialog.go: NewDialog, run, sendRequest, popRoute, connect", "dialog/route.go: RouteAddress"])
p("The requests of a call go where they are meant to go",
  "Every INVITE goes to the target and along the route given by the application, or to the Contact of a redirection; every BYE goes to the Contact of the other side along the proxies that recorded themselves. The request URI and Route sent, and the address it is sent to, are those that routing gives; repetitions and failover included.",
  "every dialog history, every route set, every resolver and network",
  "Histories with redirections, failover and re-INVITEs; route sets of any length.",
  ["dialog/dialog.go: sendRequest, popRoute, connect, handleResponse, sendHangup", "dialog/route.go: RouteMessage, RouteAddress", "dialog/messages.go: NewBye"])
p("A receiver delivers what has arrived",
  "A message delivered on the channel of a transport is the one in the datagram, changed only as RFC 3261 and RFC 3581 say: the source is noted in the top Via of a request, a route that led here is removed, a request URI moved by a strict router is restored. Datagrams that hold no message are dropped, others are not.",
  "every datagram, every source and local address",
  "All datagrams, all lists of Vias, routes and parameters.",
  ["dialog/receiver.go: ReceiveMessages, addReceived, addTimestamp, fixMessagesFromStrictRouters"])
p("A message that is sent goes out complete, to its next hop",
  "What a transport hands to the socket for a request is the request given, completed with what it lacked, with one hop less left and as routing wants it, and goes to the address (port 5060 unless given) of its next hop; a response goes where its Via says, without our own Via. Success is reported only if the datagram went out.",
  "every message, every transport, resolver and socket",
  "All messages and route sets.",
  ["dialog/transport.go: Send", "dialog/route.go: PopulateMessage, RouteMessage"])
p("A transport names its own socket",
  "The Via and the Contact of a new transport name the address its socket is bound to, the rest of the Contact is as given; so responses to its requests reach the socket, and requests routed by its Contact are recognised.",
  "every Contact, every outcome of binding the socket",
  "The port is chosen by the operating system.",
  ["dialog/transport.go: NewTransport", "dialog/receiver.go: ReceiveMessages"])
p("Between two transports the answer finds its request",
  "A request sent by one transport and received by another is answered with the Vias it had in the datagram; the response is sent back to where the request came from, delivered there, and recognised as the answer to that request, whatever the address translation between them.",
  "every request that can be written, every status, every pair of transports and source address",
  "Composes writing, parsing, noting the source, answering, routing, writing, parsing and matching, for all messages.",
  ["dialog/transport.go: Send", "dialog/receiver.go: ReceiveMessages", "dialog/messages.go: NewResponse, ResponseMatch", "sip/via.go: Append, CompareHostPort"])
p("A request made with NewRequest starts a transaction of its own",
  "NewRequest builds a request of the given method to the given address, from the given one or else the transport's Contact, with a new Call-ID, CSeq number, branch and tag and nothing else; sent, it reaches the host and port of the recipient's URI and gains only the transport's Contact, Max-Forwards and, if wanted, the time.",
  "every method, recipient, sender, transport and generated identifiers",
  "All addresses and transports.",
  ["dialog/messages.go: NewRequest", "sip/addr.go: Copy, Or, Tag", "sip/via.go: Copy, Branch", "dialog/transport.go: Send"])
p("A new session description says what it was made from",
  "The text of sdp.New(addr, codecs...) is read by sdp.Parse as a description with this address and port, exactly these codecs in this order, both directions, and an origin with a numeric identifier and this address; every field left blank in a description is read back as the default that String() writes.",
  "every address, port, origin identifier and non-empty list of codecs whose texts fit on a line and whose payload types differ",
  "Any list of codecs, any address and any random identifier; the reader's defaults differ from the writer's.",
  ["sdp/sdp.go: New, SDP.Append, Parse", "sdp/origin.go: Origin.Append", "sdp/codecs.go: ULAWCodec, DTMFCodec, Opus"])
p("ParseMsg accepts exactly the messages of its grammar, and reads each as the grammar says",
  "There is a grammar of messages (start line, header fields, lists of Vias and addresses, parameters, quoted strings, white space and folding, body) such that ParseMsg accepts a text and returns a message if and only if the grammar says that the text is a text of this message; hence each text has at most one meaning.",
  "every byte string, every message",
  "All texts: a scanner generated from a grammar of several hundred states can differ from the grammar anywhere.",
  ["sip/sip.rl", "sip/msg_parse.rl: ParseMsg"])
p("A message that was received can be passed on",
  "The text a message returned by ParseMsg is written as is accepted again and read as the same message, up to default values; a further hop changes nothing more.",
  "every text that is accepted, every message read from it",
  "All accepted texts: what the parser lets in and what the serialiser writes are two independent pieces of code.",
  ["sip/msg_parse.rl: ParseMsg", "sip/msg.go: Msg.Append", "sip/via.go: Append", "sip/addr.go: Append", "sip/uri.go: Append"])
p("Nobody outside a call can bring it down, whatever datagrams they send",
  "A running dialog survives all datagrams, whoever sends them and whatever they contain, unless the datagram carries the Call-ID and is a new offer without audio or without Contact, or carries Call-ID, CSeq and branch of the last request and is a response describing a session without audio or a redirection of a BYE without Contact; each of these, and an ICMP error, does bring down every running call.",
  "every world, INVITE, sequence of events in which each message is what the receiver made of some datagram",
  "All datagrams at all moments of all calls; composes the parser, the receiver and the dialog.",
  ["dialog/dialog.go: handleMessage, handleResponse, handleRequest, checkSDP, sendHangup", "dialog/receiver.go: ReceiveMessages", "sip/msg_parse.rl: ParseMsg"])
p("The phone's exit status tells whether the call took place",
  "The phone keeps running until the dialog has told how the call ended; then it exits, with status 0 if the call was answered and hung up and with status 1 if it failed or was hung up before it was answered. Closing of the dialog's channels never crashes it. (It does crash if its RTP socket fails, although it means to hang up.)",
  "every call, every order in which the phone reads its channels and the other things that happen to it, as long as the RTP socket works",
  "A select statement chooses freely among eight channels; closed channels keep delivering nil.",
  ["fone/main.go: main", "dialog/dialog.go: NewDialog, run", "rtp/session.go: NewSession"])
p("The phone sends media only where the other side announced last, as one stream",
  "Every RTP packet the phone sends goes to the media address the dialog reported last, which some offer or answer of this call contains; before the first such address nothing is sent, and from then on every frame and every key is; all packets carry one source identifier and consecutive numbers, also across changes of the address.",
  "every call, every order of ticks, keys and news, every pattern of failing writes",
  "All interleavings of signalling and media.",
  ["fone/main.go: main", "rtp/session.go: Send, SendDTMF", "dialog/dialog.go: checkSDP"])
p("Audio sent over RTP is heard at the other end as well as G.711 allows",
  "Send writes one packet carrying all 160 samples as mu-law; a session that receives it delivers one frame of 160 samples, each with the sign of the original and off by at most a 32nd of its magnitude plus 132 (louder ones at the limit). Over a network that loses nothing the frames heard are exactly the frames sent while the peer was known, in order, whatever keys and other packets are sent in between. SendRaw's payload and payload type arrive unchanged.",
  "every frame, every session, every history of operations",
  "2^2560 frames; composes encoder, packet writer, packet reader and decoder over all histories.",
  ["rtp/session.go: Send, SendRaw, SendDTMF, receiver", "rtp/rtp.go: Header.Write, Header.Read", "dsp/dsp_amd64.s: LinearToUlaw, UlawToLinear"])
p("Reading a message takes time at most quadratic in its length",
  "The work ParseMsg does on the head of a message (passes of its loop, bytes copied or scanned again, list nodes walked over) is at most a constant times the square of the number of bytes, whatever the bytes are. It is not at most a constant times the number of bytes: blanks after an unquoted display name are scanned again at each blank, so a short header line with n blanks costs n*n/2.",
  "every byte string; for the lower bound every number of blanks",
  "All inputs, including those made to be slow; time is not something a test of results observes.",
  ["sip/msg_parse.rl: ParseMsg, lastAddr", "sip/sip.rl: AddrUnquotedDisplay"])
p("The phone sends only media that both sides want",
  "Every RTP packet the phone sends is of a format its INVITE lists. It should also be of a format that the other side lists, and nothing should be sent to a side that rejects the audio with port 0 or marks its description sendonly. This holds only if no description of the other side ever restricts the media: the phone heeds the address and port and nothing else, so in every call an answer that lists other formats, has port 0 or asks for silence is sent mu-law all the same.",
  "every call, every answer and later offer, every order of ticks, keys and news",
  "All session descriptions and all interleavings; composes dialog, phone and RTP session.",
  ["dialog/dialog.go: checkSDP", "fone/main.go: main", "rtp/session.go: Send, SendDTMF", "sdp/sdp.go: SDP"])
p("Each media of a session description is described by its own lines",
  "The lines after an m= line belong to that media: its address is that of its own c= line, or else that of the session, and its payload types mean what the rtpmap and fmtp lines of its own section say; a direction stated for one media is not stated of the other. sdp.Parse does so if all c= lines agree and no other section speaks of the same numbers. Otherwise it does not: in every description the first c= line counts for all media, the first rtpmap for a number counts for all media, and sendonly anywhere is said of the session.",
  "every text that is accepted, every section in it, every line added to it",
  "All texts; a description with a single media, as tests use, shows none of it.",
  ["sdp/sdp.go: Parse, populateCodecs"])
p("Unknown lines of a session description do no harm",
  "A line that this package does not know (malformed, with an unknown key, an unknown attribute, or a media that is neither audio nor video), put anywhere after the version line of a description that is accepted, leaves the description accepted and read as before; well-formed ones are kept in order among Attrs and Other.",
  "every text that is accepted, every unknown line, every position",
  "All texts and positions; other implementations may send any extension.",
  ["sdp/sdp.go: Parse"])
p("The listener hears the peer and nobody else, in the order spoken",
  "What an RTP session delivers is the audio of its peer alone, each frame once, in the order in which it was spoken. This holds if nobody else sends datagrams that look like audio and the network does no more than lose packets. It holds in no other case: the receiver looks neither at the source of a datagram nor at its sequence number, so a stranger's frame is heard wherever it arrives between the peer's, and frames are heard in the order, and as often, as their packets arrive.",
  "every sequence of datagrams from any sources, every history of sends, every order of arrival, repetition and loss",
  "All networks and all interleavings with other senders; a test on one machine sees neither loss, nor reordering, nor strangers.",
  ["rtp/session.go: receiver, Send"])
p("Asking to hang up neither blocks the application nor is lost",
  "An application that reads all channels of a dialog may send on Hangup at any time: the send does not block, and the dialog gets to take the request unless the call has ended first. This holds as long as at most four requests wait. It does not hold for the fifth: from every state in which the dialog has news to tell or has ended, an application that keeps asking ends up blocked together with the dialog, for ever. And an application that leaves one channel unread cannot hang up any more once the dialog has news for that channel.",
  "every schedule of application and dialog, any number of requests to hang up",
  "Depends on the interleaving of two goroutines over four channels; a deadlock needs a particular one.",
  ["dialog/dialog.go: NewDialog, run, transition, checkSDP", "fone/main.go: main"])
p("Every response answers a message, and every offer gets an answer",
  "Every response a dialog sends repeats what is to be repeated of a message it received before, and has a status for which that message gave reason. An INVITE of the other side that offers media is answered with a session description and a Contact. The latter never holds: in every call such an offer is heeded and answered 200, but no response of a dialog ever has a body or a Contact.",
  "every call, every sequence of messages, timers and failures",
  "All histories; a test sees the response to one message.",
  ["dialog/dialog.go: handleMessage, handleRequest, resendResponse", "dialog/messages.go: NewResponse"])
p("The error for a refused call names status and reason on one line",
  "The text of the error an application is given when a request is refused is the status code, a colon and the reason phrase of the response, on one line. The first half is true; the second holds exactly if the phrase has no percent escape for CR or LF, and any text at all can be put behind the colon by the other side.",
  "every datagram that is accepted as a response, every text, every call",
  "All datagrams; a test uses phrases like \"Busy Here\".",
  ["sip/errors.go: ResponseError.Error", "sip/sip.rl: ReasonPhrase", "dialog/dialog.go: handleResponse", "fone/main.go: main"])
p("Requests are retransmitted at the configured interval, and a silent party is reported in time",
  "Two transmissions of one request are never closer to each other than the configured interval. While nothing arrives, a request is given up only when its first transmission is maxResends + 1 intervals old. A call to a party that never says anything is reported as failed after the number of transmissions times the interval, plus the lateness of the timer for each.",
  "every call, every sequence of timed events in which the timer goes off no sooner than it was set for, every interval and number of retransmissions",
  "All schedules and clocks; a test sees the times of one run.",
  ["dialog/dialog.go: popRoute, resendRequest, run, flags resendInterval and maxResends"])
p("The noise generator always delivers a sample",
  "For every seed that does not overflow, every volume and any number of earlier calls, the next call of Get returns: the search for a random point in the circle finds one after at most 129600 attempts, the point is never the centre (whose logarithm and quotient would be infinite), and the result is one coordinate times the factor and the volume, without its fraction and clipped to 16 bits. Two calls in a row deliver both coordinates of one point.",
  "every seed of magnitude less than 2^63 - 54773, every volume, every rounding of float64 arithmetic, any number of calls",
  "The generator has 259200*134456*243000 states and a table; an endless loop or a NaN would need one of them.",
  ["dsp/awgn.go: NewAWGN_DBOV, Get, ran1, fsaturate"])
p("Lists in memory behave as lists, and rewriting a route leaves other messages alone",
  "Len, Last, Reversed and Detach do what their names say for every linked list of addresses or Via headers; Reversed and Detach leave everything in memory as it was and return new nodes. Rewriting a request for a strict router changes that request and nothing else, even if other messages share its route. The repair of a received request from a strict router happens in place: it changes nothing else if the routes are the message's own, and would shorten the route of any message that shares them.",
  "every memory, every list of any length, every message, every sharing of nodes between messages",
  "All shapes of memory; a test looks at the one list it has made.",
  ["sip/addr.go: Len, Last, Reversed, Copy", "sip/via.go: Last, Detach", "dialog/route.go: RouteMessage", "dialog/receiver.go: fixMessagesFromStrictRouters"])
p("What the application puts into its INVITE is what is sent",
  "Every INVITE of a dialog, also a repeated one, one to another address or after a redirection, has the caller, the callee, the Call-ID, CSeq, headers and extension headers that the application gave to NewDialog, apart from what was missing, and the body it gave with missing addresses filled in; every request of the dialog, of any method, names the caller that was given, with one tag. So the phone calls under its user's name and public address, calls whom it was told to call, and offers its own RTP port.",
  "every INVITE given, every sequence of messages, timers and failures, every user, address, port and target",
  "All histories; a test looks at the first INVITE of one call.",
  ["dialog/dialog.go: NewDialog, sendRequest, popRoute, populate, handleResponse", "dialog/route.go: PopulateMessage, RouteMessage", "fone/main.go: main"])
p("All that a call sends can be read",
  "Every message a dialog sends - INVITE, BYE, CANCEL, ACK and responses, first or repeated, to the first address or another one, before or after redirections - is accepted by ParseMsg and read as the message that was meant, with the defaults for what was left out, provided that the INVITE of the application and the messages of the other side are of the form that can be written (C14) and the sockets have IPv4 addresses or names. So whoever receives an INVITE of the phone learns from it who calls, who is called, and the address, port and codecs for audio.",
  "every such INVITE, every sequence of such messages, timers and failures, every time stamp, shorter than there are CSeq numbers left",
  "All histories and all contents of messages, which flow from one message into others; a test reads back one text.",
  ["dialog/dialog.go: send, populate, sendHangup, sendResponse, handleMessage", "dialog/messages.go: NewResponse, NewAck, NewCancel, NewBye", "dialog/route.go: PopulateMessage, RouteMessage", "sip/msg.go: Append", "sip/sip.rl", "fone/main.go: main"])
p("Two programs that use the library understand each other",
  "Every request that a dialog sends is heard by whoever receives it with this library, with its method, numbers, parties and body. If that program answers with NewResponse, a Contact and a body, and sends the answer with its transport, the dialog hears status, Contact and body as given, and recognises the answer: the application is told that the call rings, is answered (and where to send audio), is refused or is over, and the ACK goes to the Contact and is heard as one. This fails for a caller whose socket has port 5060: whatever is answered to it, and whatever happens afterwards, all is as if the answer had not arrived.",
  "every call, every sequence of messages, timers and failures before the answer, every status from 100 to 999, every Contact and body that can be written, every source address",
  "Composes two programs, a network of texts and all histories of a call; a test plays one call, and from one port.",
  ["dialog/dialog.go: run, send, handleResponse", "dialog/messages.go: NewResponse, NewAck, ResponseMatch", "dialog/transport.go: Send", "dialog/receiver.go: ReceiveMessages", "sip/msg.go: Append", "sip/sip.rl", "sip/via.go: Append"])
p("Max-Forwards limits a call, and the documented limits do not",
  "The INVITE of a dialog is transmitted with a Max-Forwards that starts one below what the application gave (70 if nothing) and is one less each time, whether the transmission is a repetition, goes to another address or follows a redirection; it is never below one, so there are fewer transmissions than Max-Forwards says. The limits documented in dialog/prefs.go should hold as well: at most MaxAttempts (10) attempts and no message longer than MTU (1450). They do not: every call that can be placed is redirected as often as Max-Forwards allows, and an INVITE is written whatever its length.",
  "every INVITE, every sequence of messages, timers and failures, every number of redirections and every length",
  "All histories and lengths; a test would need to know that nothing reads the variables.",
  ["dialog/prefs.go", "dialog/dialog.go: send, sendRequest, popRoute, handleResponse"])
p("A call that can be placed is placed",
  "If the destination of an INVITE has addresses and one of them can be dialled, NewDialog dials the addresses before it in order, then writes the INVITE to the socket of the first that can be dialled, complete, with a branch and with what the application gave; nothing is reported to the application and the call goes on.",
  "every INVITE with Max-Forwards other than 1, every list of addresses, every number of dead addresses before the first live one",
  "All lists of addresses and all states of the network; a test has one server.",
  ["dialog/dialog.go: NewDialog, sendRequest, popRoute, connect, populate, send", "dialog/route.go: RouteMessage, RouteAddress"])
p("The other side can hang up, and knows that it has",
  "A request that a program with this library sends within a call - above all BYE, but also OPTIONS, a new INVITE or any other method - is heard by the dialog, and the one thing the dialog sends then is an answer. The program hears that answer, with the status that is due (200 for BYE, OPTIONS and INVITE, 405 for others), and the library recognises it as the answer to the request; after BYE the application of the dialog hears that the call is over. This fails for a program whose Via has port 5060: it hears the answer and does not recognise it.",
  "every call, every sequence of messages, timers and failures before, every request within the call that can be written and is numbered in order, every source address",
  "Composes two programs, a network of texts and all histories of a call; a test plays one call, and from one port.",
  ["dialog/dialog.go: run, handleRequest, sendResponse, send", "dialog/messages.go: NewResponse, ResponseMatch", "dialog/receiver.go: ReceiveMessages", "sip/msg.go: Append", "sip/sip.rl", "sip/via.go: Append"])
p("A call can be made with the transport alone",
  "Every request that can be written and that a transport sends is heard by whoever receives it with this library, with its method, numbers, parties and body. The answer to it that the other program makes with NewResponse, a Contact and a body comes back with status, Contact and body as given, and ResponseMatch accepts it exactly if the Via of the request does not name port 5060. So a program needs no dialog to make a call: it sends an INVITE made with NewRequest and hears the answer; the ACK that NewAck makes of it is heard by the other program with the Call-ID, parties and number of the INVITE, and AckMatch accepts it for the answer; the BYE that NewBye makes is heard with the next number, and whatever is answered to it is recognised. The CANCEL that NewCancel makes of a request, and the request itself when it is sent again, are heard with the Call-ID, number, parties and branch of the request; the answer to the CANCEL is recognised, and what answers the second transmission answers the first.",
  "every transport, every request that can be written, every random identifier, every status from 100 to 999, every Contact and body that can be written, every source address",
  "Composes two programs and four messages over all their contents; a test plays one call, and from one port.",
  ["dialog/messages.go: NewRequest, NewResponse, NewAck, NewCancel, NewBye, ResponseMatch, AckMatch", "dialog/transport.go: Send", "dialog/route.go: PopulateMessage, RouteMessage", "dialog/receiver.go: ReceiveMessages", "sip/msg.go: Append", "sip/sip.rl", "example/echo2/echo2_test.go"])
p("A call works from beginning to end",
  "Suppose a destination that can be dialled, sockets that work and are not at port 5060 (C95), and on the other side a program that uses this library and says directly where it is to be reached. Then the INVITE leaves; when the program accepts it, the application hears the media address, if there is one, and that the call is answered, and an ACK leaves for the address the program gave; when the application hangs up, a BYE leaves for that address; and when the program accepts it, the application hears that the call is over and everything is closed. Nothing else is sent or reported, and there is no error. More generally, whenever a call is up, whatever happened before, hanging up sends one BYE to the address that the other side gave.",
  "every INVITE that can be written, every list of addresses, every answer that can be written, every source address, every random identifier; for hanging up, every history of the call",
  "Liveness of the whole exchange for all contents of the messages; a test plays one call between two fixed programs.",
  ["dialog/dialog.go: NewDialog, run, sendRequest, handleResponse, sendHangup, cleanup", "dialog/messages.go: NewResponse, NewAck, NewBye, ResponseMatch", "dialog/transport.go: Send", "dialog/receiver.go: ReceiveMessages", "sip/msg.go: Append", "sip/sip.rl"])
p("A call ends in order, however it ends",
  "Under the conditions of C100, three other calls run from beginning to end as they should. If the program that has accepted the call hangs up, a 200 leaves that the program recognises, the application hears that the call is over, and everything is closed. If the program refuses the call and gives a Contact, an ACK for the refusal leaves, the application gets the refusal, with status, Contact and body as given, as the error and as the last thing, and everything is closed. If the application hangs up before there is an answer, a CANCEL for the INVITE leaves, and when the program then refuses the INVITE, the call ends as a refused one. Nothing else is sent or reported. More generally, as long as a call is not answered, whatever happened before, hanging up sends one CANCEL for the last INVITE if writing works, and the dialog goes on.",
  "every INVITE that can be written, every list of addresses, every answer, refusal and BYE that can be written, every source address, every random identifier; for cancelling, every history of the call",
  "Liveness of whole exchanges for all contents of the messages; a test plays one call between two fixed programs.",
  ["dialog/dialog.go: NewDialog, run, sendRequest, handleResponse, handleRequest, sendHangup, cleanup", "dialog/messages.go: NewResponse, NewAck, NewCancel, ResponseMatch", "dialog/transport.go: Send", "dialog/receiver.go: ReceiveMessages", "sip/msg.go: Append", "sip/sip.rl"])
for x in P: print(json.dumps(x, ensure_ascii=False))
