{"id": "C01", "title": "ParseURI is total: never panics, always returns", "statement": "For every byte slice, ParseURI returns either a URI or an error after reading each byte at most once. It never indexes outside its scratch buffer, and so never panics on hostile input.", "quantifier": "every byte slice of every length and content", "why_tests_cant": "The scratch buffer is exactly as long as the input; a run that appends more bytes than it consumed would panic, and only specially shaped inputs could do that. No finite list of inputs excludes it.", "anchors": ["sip/uri_parse.go: ParseURI", "sip/uri_parse.rl", "sip/util.go: unhex"]}
{"id": "C02", "title": "ParseURI accepts exactly the documented URI grammar and returns its components", "statement": "ParseURI(s) succeeds if and only if s is scheme ':' [user [':' password] '@'] host [':' port] *(';' name ['=' value]) ['?' name ['=' value] *('&' name ['=' value])] over the documented character classes; the result carries the lower-cased scheme and host, the percent-decoded user, password, parameters and headers (latest first) and the port number modulo 65536.", "quantifier": "every byte slice and every URI value", "why_tests_cant": "The parser is 59 generated goto states in two copies (with and without '@'); tests visit a few dozen strings, while a misplaced transition only shows on strings nobody thought of.", "anchors": ["sip/uri_parse.go: ParseURI", "sip/uri_parse.rl: uriSansUser, uriWithUser"]}
{"id": "C03", "title": "URI round trip", "statement": "If a URI has a legal scheme and host, parsing its String() gives the same URI back, whatever bytes its user, password, parameter and header names and values contain.", "quantifier": "every URI value whose scheme and host are legal, all user/pass/param/header bytes", "why_tests_cant": "The escaping sets of the writer and the character classes of the parser are written in two different files in two different languages; they must agree for all 256 bytes in each of five positions and in all combinations.", "anchors": ["sip/uri.go: URI.Append, URI.String", "sip/uriparam.go: Append", "sip/uriheader.go: Append", "sip/uri_parse.go: ParseURI", "sip/escape.go"]}
{"id": "C04", "title": "A serialised URI cannot be used to inject delimiters", "statement": "Text placed in the user, password, URI parameters or URI headers is escaped so that none of CR, LF, space, '<', '>', '@' (and, in each position, its own delimiters) appear unescaped in the output.", "quantifier": "every byte string used as user, password, parameter or header", "why_tests_cant": "Injection attacks use exactly the bytes a test author did not list.", "anchors": ["sip/escape.go: appendEscaped", "sip/charsets.go", "sip/uri.go: Append"]}
{"id": "C05", "title": "Percent escaping is the inverse of unescaping", "statement": "For each predicate that rejects '%', decoding the escaped form of any byte string gives the string back, and the escaped form contains only bytes accepted by the predicate, '%' and lower-case hexadecimal digits.", "quantifier": "every byte string and every character predicate", "why_tests_cant": "All 256 byte values in all contexts and all lengths.", "anchors": ["sip/escape.go: appendEscaped", "sip/util.go: unhex"]}
{"id": "C06", "title": "The bit-mask character sets are the RFC 3261 sets", "statement": "tokenc, qdtextc, userc, passc, paramc and headerc, computed from two 64-bit masks filled at init, contain exactly the bytes listed by the RFC 3261 section 25.1 productions the source names (and nothing above 127).", "quantifier": "every byte value, for each of the six sets", "why_tests_cant": "The property is about the masks built by init loops with shifts; a wrong shift or range bound is invisible unless all bytes are examined against an independent definition.", "anchors": ["sip/charsets.go: init, charsetAdd, charsetAddRange, charsetContains"]}
{"id": "C07", "title": "ParseMsg never panics", "statement": "For every byte slice, ParseMsg performs no out-of-range index or slice, and no nil pointer dereference: it returns a message or an error.", "quantifier": "every byte slice", "why_tests_cant": "The parser is 782 generated goto states with look-ahead, hold and backtracking, sharing a mark, a buffer and several pointers; whether each pointer is set and each slice is ordered on every path can only be established by an invariant over all states.", "anchors": ["sip/msg_parse.go: ParseMsg", "sip/sip.rl"]}
{"id": "C08", "title": "ParseMsg always terminates", "statement": "For every byte slice ParseMsg stops; the hold and backtrack jumps never form a loop that consumes no input.", "quantifier": "every byte slice", "why_tests_cant": "fhold/fexec jumps re-read input. A cycle of them is an endless loop (a remote denial of service) triggered by one unlucky string.", "anchors": ["sip/msg_parse.go: ParseMsg", "sip/sip.rl: hold, backtrack, gxh"]}
{"id": "C09", "title": "Parsed header text cannot smuggle a line break", "statement": "In every message ParseMsg returns, each textual header value (including extension headers, the Call-ID and the methods) contains CR or LF only as part of a CR LF followed by a space or tab (a folded line); tokens contain only token characters. So re-serialising or logging a value cannot start a new header.", "quantifier": "every byte slice accepted by ParseMsg, every header of the result", "why_tests_cant": "Header injection is about inputs chosen by an attacker.", "anchors": ["sip/msg_parse.go: ParseMsg", "sip/sip.rl: hval, value, token"]}
{"id": "C10", "title": "Every accepted message is either a request with a URI or a response with a status", "statement": "A message returned by ParseMsg either has a non-empty method, a non-nil request URI and status 0, or has no method, no request URI and a status in 100..999; every address in it has a non-nil URI.", "quantifier": "every byte slice accepted by ParseMsg", "why_tests_cant": "All later code dereferences Request and Addr.Uri relying on this; it must hold for every accepted input.", "anchors": ["sip/msg_parse.go: ParseMsg", "sip/msg.go: IsResponse", "sip/addr.go: Addr.Uri"]}
{"id": "C11", "title": "Message body is exactly the bytes after the blank line, checked against Content-Length", "statement": "If a message with a positive Content-Length is accepted then the declared length equals the number of bytes after the blank line, and a non-SDP payload is exactly these bytes with the declared content type; if the lengths differ an error is returned.", "quantifier": "every byte slice", "why_tests_cant": "Truncated, padded and contradictory lengths are unboundedly many.", "anchors": ["sip/msg_parse.go: ParseMsg", "sip/payload.go: MiscPayload"]}
{"id": "C12", "title": "Header names are case-insensitive", "statement": "Changing the case of letters in the name of a recognised header does not change the parsed message.", "quantifier": "every message, every recognised header name, every choice of letter cases", "why_tests_cant": "Each of about 55 names has 2^n spellings through a generated trie of several hundred states.", "anchors": ["sip/msg_parse.go", "sip/sip.rl: aname, sname, cheader"]}
{"id": "C13", "title": "Repeated and comma separated address and Via headers keep their order", "statement": "Vias and addresses given in several headers of the same name, or separated by commas, appear in the message list in the order of the text.", "quantifier": "every number and grouping of headers and of comma separated items", "why_tests_cant": "Unbounded lists; the list tail pointer is kept across headers.", "anchors": ["sip/sip.rl: Via, Addr, lastAddr", "sip/msg_parse.go"]}
{"id": "C14", "title": "Message round trip", "statement": "Serialising a well-formed message and parsing the result gives the message back.", "quantifier": "every message whose fields are well formed, any number of Vias, addresses, parameters and extension headers, any payload bytes", "why_tests_cant": "A message has some 60 fields and unbounded lists; equality must hold for all combinations, and the writer and the generated parser must agree on quoting, escaping, defaults and ordering.", "anchors": ["sip/msg.go: Msg.Append", "sip/msg_parse.go: ParseMsg"]}
{"id": "C15", "title": "Address and Via parameters round trip through quoting", "statement": "A parameter value or display name written by the library is read back unchanged.", "quantifier": "every byte string used as a parameter value or display name", "why_tests_cant": "The decision whether to quote, the escapes inside quotes and the parser's quoted-string states must agree for every byte.", "anchors": ["sip/quote.go: appendQuoted, appendQuoteQuoted", "sip/param.go: Append", "sip/addr.go: Append"]}
{"id": "C16", "title": "A quoted string never breaks out of its quotes or its line", "statement": "The text written for a parameter value or display name contains no unescaped '\"' inside the quotes and no CR except in CR LF followed by space or tab; it always ends with the closing quote.", "quantifier": "every byte string", "why_tests_cant": "Same reason as for injection: adversarial bytes.", "anchors": ["sip/quote.go"]}
{"id": "C17", "title": "Parameter lookup is case-insensitive and returns the latest entry", "statement": "Get(name) on URI parameters, URI headers, address/Via parameters and extension headers returns the most recently added entry whose name equals the given one ignoring ASCII case, or nil exactly when there is none.", "quantifier": "every list and every name", "why_tests_cant": "Lists of any length with duplicate and differently cased names.", "anchors": ["sip/param.go: Get", "sip/uriparam.go: Get", "sip/uriheader.go: Get", "sip/xheader.go: Get"]}
{"id": "C18", "title": "Serialisation keeps insertion order", "statement": "URI parameters, URI headers, address/Via parameters and extension headers are written in the order in which they were added, although they are stored latest first.", "quantifier": "every list", "why_tests_cant": "Unbounded lists; recursion on Next.", "anchors": ["sip/param.go: Append", "sip/uriparam.go: Append", "sip/uriheader.go: Append", "sip/xheader.go: Append"]}
{"id": "C19", "title": "sdp.Parse is total", "statement": "For every string, sdp.Parse returns a description or an error: no slice or index is ever out of range (rtpmap/fmtp arrays, attribute capacity, line prefixes).", "quantifier": "every string", "why_tests_cant": "The attribute list is grown by re-slicing up to a capacity computed from the number of lines, and arrays are indexed by counters: overflow would need a special shape of description.", "anchors": ["sdp/sdp.go: Parse, populateCodecs, parseRtpmapInfo, parseMediaInfo, parseConnLine, parseOriginLine"]}
{"id": "C20", "title": "A parsed SDP is usable", "statement": "Every description returned by sdp.Parse has an origin and a connection address that is not multicast, at least one of audio and video, and at least one codec per media; each codec has a non-empty name.", "quantifier": "every string accepted by sdp.Parse", "why_tests_cant": "Callers use these fields without checks.", "anchors": ["sdp/sdp.go: Parse, populateCodecs"]}
{"id": "C21", "title": "Codec order and payload types follow the m= line", "statement": "The codecs of a parsed media are in one-to-one, order-preserving correspondence with the payload types on the m= line; each one is described by the first rtpmap with its number, and by the IANA table only when there is none (or it gives no name).", "quantifier": "every string accepted by sdp.Parse", "why_tests_cant": "Any number of payload types and rtpmap lines in any order.", "anchors": ["sdp/sdp.go: populateCodecs, parseMediaInfo", "sdp/codecs.go: StandardCodecs"]}
{"id": "C22", "title": "SDP round trip", "statement": "Parsing the serialised form of a well-formed description gives the description back.", "quantifier": "every well-formed description: any codecs, attributes and unknown fields", "why_tests_cant": "Unbounded lists and arbitrary text fields; the text format is line and space separated, so the property depends on which bytes the fields contain.", "anchors": ["sdp/sdp.go: Append, Parse", "sdp/media.go: Append", "sdp/codec.go: Append", "sdp/origin.go: Append"]}
{"id": "C23", "title": "RTP headers round trip and have the RFC 3550 layout", "statement": "Writing a header appends exactly 12 bytes whose fields are at the RFC 3550 bit positions, and reading them back gives the same header (payload type modulo 128).", "quantifier": "every header: all flags, payload types, sequence numbers, timestamps and SSRCs", "why_tests_cant": "2^90 headers.", "anchors": ["rtp/rtp.go: Header.Write, Header.Read"]}
{"id": "C24", "title": "RTP header reading is total and rejects what it cannot represent", "statement": "Read returns an error exactly when the packet is shorter than 12 bytes, its version is not 2 or it carries a header extension; it never indexes past the slice, and on error leaves the header unchanged.", "quantifier": "every byte slice", "why_tests_cant": "Every length and first byte.", "anchors": ["rtp/rtp.go: Header.Read"]}
{"id": "C25", "title": "RFC 2833 event payloads round trip", "statement": "EventHeader.Write followed by Read gives the same event, end bit, reserved bit, volume modulo 64 and duration, and the two agree with the RFC 2833 layout.", "quantifier": "every event header", "why_tests_cant": "2^34 values.", "anchors": ["rtp/rtp.go: EventHeader.Write, EventHeader.Read"]}
{"id": "C26", "title": "DTMF characters and event numbers correspond", "statement": "DtmfToChar and CharToDtmf are inverse to each other on 0..16 up to letter case, reject everything else, and agree with the table SendDTMF uses.", "quantifier": "every byte", "why_tests_cant": "Three separately written tables must agree on all 256 bytes.", "anchors": ["rtp/dtmf.go: DtmfToChar, CharToDtmf", "rtp/session.go: dtmfCodes"]}
{"id": "C27", "title": "Sequence numbers and timestamps advance correctly over any history of sends", "statement": "Over any sequence of Send, SendRaw and SendDTMF calls, consecutive packets carry consecutive sequence numbers modulo 2^16, and a packet's timestamp is the start timestamp plus the number of samples sent before it modulo 2^32; DTMF does not move the timestamp.", "quantifier": "every history of calls, every frame content, every write outcome", "why_tests_cant": "Wrap-around happens after 65536 packets; interleavings are unbounded.", "anchors": ["rtp/session.go: Send, SendRaw, SendDTMF"]}
{"id": "C28", "title": "A DTMF digit is sent as one well-formed RFC 2833 event", "statement": "SendDTMF of a valid digit writes start packets with growing durations, only the first of them marked, followed by exactly three identical end packets with the end bit, all with the same timestamp and event code; an invalid digit writes nothing.", "quantifier": "every digit byte, every session state", "why_tests_cant": "Every starting sequence number/timestamp (including wrap-around) and every byte.", "anchors": ["rtp/session.go: SendDTMF"]}
{"id": "C29", "title": "Only complete ulaw frames reach the application", "statement": "The receiver delivers a frame exactly for the packets of 172 bytes with a valid version-2, extension-free header and payload type 0, in arrival order, and the samples are the ulaw decoding of bytes 12..171 of that packet; stale bytes of earlier packets are never used.", "quantifier": "every sequence of received packets", "why_tests_cant": "The receive buffer is reused, so leftovers of a longer earlier packet are visible to a later short one; only an argument over all histories settles it.", "anchors": ["rtp/session.go: receiver"]}
{"id": "C30", "title": "ulaw compression is a faithful G.711 quantiser", "statement": "LinearToUlaw maps every 64-bit sample to a byte 0..255; UlawToLinear maps bytes to -32124..32124; re-encoding a decoded byte gives it back (except negative zero); encoding is odd-symmetric, monotone and its error is at most half the segment step; louder inputs saturate.", "quantifier": "every 64-bit linear sample and every ulaw byte", "why_tests_cant": "The code is assembly with bit scans, checked against a table of 256 values only; the encoder has 2^64 inputs.", "anchors": ["dsp/dsp_amd64.s: LinearToUlaw, UlawToLinear"]}
{"id": "C31", "title": "Mixing is saturating addition of exactly 160 samples", "statement": "L16MixSat160 replaces each of the first 160 samples of dst by the sum with the corresponding sample of src clamped to the 16-bit range, and touches nothing else.", "quantifier": "every pair of frames and any surrounding memory", "why_tests_cant": "2^5120 inputs; off-by-one in the loop count would overrun memory that a test does not look at.", "anchors": ["dsp/dsp_amd64.s: L16MixSat160"]}
{"id": "C32", "title": "The noise generator never leaves its table", "statement": "For every seed, every draw uses an index in 1..97 of the 98-entry table and the three generators stay in range, so the fallback value is never returned.", "quantifier": "every seed and any number of draws", "why_tests_cant": "The state space has 259200*134456*243000 states.", "anchors": ["dsp/awgn.go: NewAWGN_DBOV, ran1"]}
{"id": "C33", "title": "RTP ports are even and in range", "statement": "The port Listen tries is even and lies in [16384, 32768] for every value of the random generator, every such port can come up; at most ten ports are tried, and only 'address already in use' leads to another try.", "quantifier": "every random stream and every outcome of binding", "why_tests_cant": "Random draws cannot be enumerated by a test.", "anchors": ["rtp/session.go: Listen"]}
{"id": "C34", "title": "Responses echo the request's transaction", "statement": "NewResponse copies Via list, From, To, Call-ID, CSeq number and method and Record-Route unchanged, sets the status and its phrase, and carries no body, so the response matches the request it answers whenever the request's top Via has a branch and is its only Via.", "quantifier": "every request and status", "why_tests_cant": "All messages with any header content.", "anchors": ["dialog/messages.go: NewResponse, ResponseMatch", "sip/status.go: Phrase"]}
{"id": "C35", "title": "ACK, CANCEL and BYE belong to the right transaction and dialog", "statement": "The ACK for a response carries its Call-ID, CSeq number, From, To, top Via only, and the reversed Record-Route; a CANCEL equals the INVITE in request URI, Call-ID, CSeq number, Via, From, To and Route; a BYE has a CSeq one larger than the last local one and goes to the remote Contact along the reversed Record-Route.", "quantifier": "every INVITE, response and local sequence counter", "why_tests_cant": "All messages; lists of any length are reversed.", "anchors": ["dialog/messages.go: NewAck, NewCancel, NewBye", "sip/addr.go: Reversed", "sip/via.go: Detach"]}
{"id": "C36", "title": "Response matching accepts exactly the responses of the transaction", "statement": "ResponseMatch holds exactly when the message is a response with the request's CSeq number and method whose last Via has the same host and port and the same branch as the request's Via.", "quantifier": "every pair of messages, any Via lists", "why_tests_cant": "All messages.", "anchors": ["dialog/messages.go: ResponseMatch, AckMatch", "sip/via.go: Last, CompareHostPort, CompareBranch"]}
{"id": "C37", "title": "Requests are routed according to RFC 3261 loose and strict routing", "statement": "For a request, the next hop is the first Route entry that is not ourselves, or the request URI when there is none; with a strict router the request URI is moved to the end of the route set, and nothing else of the route set is lost or reordered; routed REGISTERs are refused.", "quantifier": "every request, route set and local contact", "why_tests_cant": "Route sets of any length with any mixture of loose and strict entries.", "anchors": ["dialog/route.go: RouteMessage"]}
{"id": "C38", "title": "Responses are routed back along the Via", "statement": "For a response, our own top Via is removed, and the next hop is the received/rport override of the then top Via or its sent-by; malformed rport values are reported as errors.", "quantifier": "every response and local Via", "why_tests_cant": "All Via lists and parameter texts.", "anchors": ["dialog/route.go: RouteMessage", "sip/via.go: CompareHostPort"]}
{"id": "C39", "title": "Strict routing is undone at the receiving side", "statement": "When a request routed through a strict router reaches the host named by the (lr-marked) request URI, the original request URI and route set are restored.", "quantifier": "every request and route set", "why_tests_cant": "Route sets of any length; sender and receiver code must be inverse.", "anchors": ["dialog/receiver.go: fixMessagesFromStrictRouters", "dialog/route.go: RouteMessage"]}
{"id": "C40", "title": "A datagram received from the network cannot crash the process", "statement": "For every datagram, the receiving loop either drops it or delivers a message; it never panics.", "quantifier": "every datagram and source address", "why_tests_cant": "One malformed packet out of infinitely many suffices to kill the process.", "anchors": ["dialog/receiver.go: ReceiveMessages, addReceived, addTimestamp, fixMessagesFromStrictRouters"]}
{"id": "C41", "title": "Requests are stamped with their true source", "statement": "After reception, the top Via of a request leads a response back to the address the datagram came from (received/rport), unless the sender already supplied its own values.", "quantifier": "every request and source address", "why_tests_cant": "All Via contents and addresses.", "anchors": ["dialog/receiver.go: addReceived", "dialog/route.go: RouteMessage"]}
{"id": "C42", "title": "Delivered messages are not changed by later traffic", "statement": "A message handed to the application keeps its contents when further datagrams are received.", "quantifier": "every sequence of datagrams", "why_tests_cant": "Depends on aliasing between the reused receive buffer and slices stored in messages: only visible in multi-packet histories.", "anchors": ["dialog/receiver.go: ReceiveMessages", "sip/msg_parse.go: value action, MiscPayload"]}
{"id": "C43", "title": "PopulateMessage makes any request sendable", "statement": "After PopulateMessage a request has a Via with a branch, a Contact, To, From with a tag, non-empty Call-ID, CSeq method, positive Max-Forwards and User-Agent; what the caller had set is kept; responses are untouched.", "quantifier": "every message, Via and Contact", "why_tests_cant": "All combinations of present and absent fields.", "anchors": ["dialog/route.go: PopulateMessage"]}
{"id": "C44", "title": "Copies are independent", "statement": "Mutating a Copy of a URI, address, Via or message through its fields never changes the original, and a Copy equals the original.", "quantifier": "every value and every later update", "why_tests_cant": "Aliasing is only visible after mutation; documentation promises a deep copy.", "anchors": ["sip/uri.go: Copy", "sip/addr.go: Copy", "sip/via.go: Copy", "sip/msg.go: Copy"]}
{"id": "C45", "title": "Max-Forwards always decreases and never resets", "statement": "Each transmission of a request carries a Max-Forwards smaller than the stored one, and a request whose Max-Forwards has reached zero is not sent.", "quantifier": "every message and every history of sends", "why_tests_cant": "Histories of retransmissions; the serialiser gives zero a special meaning.", "anchors": ["dialog/transport.go: Send", "dialog/dialog.go: send", "sip/msg.go: Append"]}
{"id": "C46", "title": "Call state seen by the application is monotone", "statement": "The states published for a call only move forward (proceeding, ringing, answered, hangup): after 'answered' the application sees only 'hangup', and 'answered' is seen at most once.", "quantifier": "every sequence of received messages, timers, socket errors and hang-up commands", "why_tests_cant": "All event histories.", "anchors": ["dialog/dialog.go: run, handleResponse, handleRequest, transition"]}
{"id": "C47", "title": "Retransmissions are bounded and fail over to the next address", "statement": "A request is transmitted at most maxResends+1 times to each address; when an address does not answer, the next address from DNS is tried, and when all have been tried the application gets an error.", "quantifier": "every timer schedule, address list and response history", "why_tests_cant": "All schedules.", "anchors": ["dialog/dialog.go: popRoute, resendRequest, connect"]}
{"id": "C48", "title": "The dialog ends cleanly", "statement": "Whenever the dialog loop ends, its sockets are closed, the receiving goroutines end and the three notification channels are closed.", "quantifier": "every schedule of the dialog goroutine and of the receiving goroutines", "why_tests_cant": "Deadlocks between two goroutines over unbuffered channels depend on the schedule.", "anchors": ["dialog/dialog.go: cleanup, cleanupSock, cleanupCSock", "dialog/receiver.go: ReceiveMessages"]}
{"id": "C49", "title": "The RTP session ends cleanly", "statement": "Close, called while the application holds no frame, always returns, and the receiving goroutine ends, whatever it was doing.", "quantifier": "every schedule and every sequence of packets", "why_tests_cant": "Schedule dependent.", "anchors": ["rtp/session.go: Close, CloseAfterError, receiver"]}
{"id": "C50", "title": "Every incoming request is answered as RFC 3261 requires", "statement": "A request of another call is answered 481; with another SIP version 505; with exhausted Max-Forwards 483; out of order 500; BYE and OPTIONS 200; re-INVITE 200, retransmitted until acknowledged; unknown methods 405; ACK is never answered.", "quantifier": "every request in every dialog state", "why_tests_cant": "All messages in all states.", "anchors": ["dialog/dialog.go: handleMessage, handleRequest, sendResponse, resendResponse"]}
{"id": "C51", "title": "A final INVITE response is always acknowledged", "statement": "Every matching response with status at least 200 to our INVITE that names a Contact is acknowledged by an ACK with the same Call-ID and CSeq before anything else is sent, and without Contact it ends the call with an error.", "quantifier": "every response in every dialog state", "why_tests_cant": "All messages in all states, including retransmitted 200s.", "anchors": ["dialog/dialog.go: handleResponse", "dialog/messages.go: NewAck"]}
{"id": "C52", "title": "The dialog cannot be crashed by the remote side", "statement": "No sequence of messages, socket errors and timers makes the dialog goroutine panic.", "quantifier": "every sequence of events", "why_tests_cant": "Panics need particular combinations of missing headers, states and payloads.", "anchors": ["dialog/dialog.go"]}
{"id": "C53", "title": "Hanging up uses the right request", "statement": "Hang-up sends CANCEL for the INVITE before the call is answered and BYE with the next CSeq inside the dialog afterwards.", "quantifier": "every dialog history", "why_tests_cant": "All histories.", "anchors": ["dialog/dialog.go: sendHangup", "dialog/messages.go: NewCancel, NewBye"]}
{"id": "C54", "title": "Generated identifiers have the required shape", "statement": "Branches start with the RFC 3261 magic cookie and, like tags and Call-IDs, consist of token characters; Call-IDs have the UUID version 4 layout; CSeq values are in 0..49999; distinct random bytes give distinct identifiers.", "quantifier": "every random stream", "why_tests_cant": "Random inputs.", "anchors": ["util/util.go: GenerateTag, GenerateBranch, GenerateCallID, GenerateCSeq, GenerateOriginID"]}
{"id": "C55", "title": "SRV answers are tried in the order given", "statement": "RouteAddress returns, for a host name without port, one route per SRV record in the order of the answer; an IP address yields exactly itself with port 5060 by default, without any DNS query.", "quantifier": "every host, port and DNS answer", "why_tests_cant": "Answers of any length.", "anchors": ["dialog/route.go: RouteAddress"]}
{"id": "C56", "title": "Parse errors point into the message", "statement": "The offset of a MsgParseError is a position inside the message, formatting it never panics, and the text shown contains the message itself.", "quantifier": "every byte slice rejected by ParseMsg and every offset", "why_tests_cant": "All inputs.", "anchors": ["sip/msgerror.go: MsgParseError.Error", "sip/msg_parse.go"]}
{"id": "C57", "title": "Legal extension headers are accepted", "statement": "A message that parses still parses after a header line with any token as name, not one of the known header names, and any printable text as value is added; the header is stored as an extension header.", "quantifier": "every accepted message, every token that is not a known header name, every value", "why_tests_cant": "The names collide with prefixes of known names in a table of several hundred states.", "anchors": ["sip/msg_parse.rl", "sip/sip.rl", "sip/msg_parse.go: ParseMsg"]}
{"id": "C58", "title": "Every request gets a branch of its own", "statement": "Two requests sent by the same transport or dialog do not carry the same Via branch, except an ACK or CANCEL that must repeat the one of its INVITE.", "quantifier": "every history of requests", "why_tests_cant": "Histories; sharing of Via records between messages.", "anchors": ["dialog/messages.go: PopulateMessage, NewRequest", "dialog/transport.go: Send"]}
{"id": "C59", "title": "A dialog that ends tells the application why, once", "statement": "The last thing an application hears from a dialog before its channels are closed is one error or the state Hangup; it hears neither earlier, and nothing afterwards.", "quantifier": "every dialog history", "why_tests_cant": "All histories and all points of failure.", "anchors": ["dialog/dialog.go: run, handleMessage, handleResponse, handleRequest, send, popRoute, sendRequest, transition, cleanup"]}
{"id": "C60", "title": "Compact header names mean the same as the long ones", "statement": "Writing a header with its one-letter name gives the same message as writing it with its full name, and a header changes the field it names and no other.", "quantifier": "every message, every header with a compact form, every value", "why_tests_cant": "The names are leaves of a generated trie shared by all headers; only the combination with every other header shows a stray assignment.", "anchors": ["sip/sip.rl: aname, sname, cheader", "sip/msg_parse.go: ParseMsg"]}
{"id": "C61", "title": "Body bytes are opaque", "statement": "Whether a message is accepted does not depend on the bytes of its body beyond their number, unless the body is a session description, and the payload is these bytes.", "quantifier": "every message, every body", "why_tests_cant": "Every byte string of a given length is a body; the look-ahead for continued lines sits at the border between head and body.", "anchors": ["sip/msg_parse.go: ParseMsg", "sip/msg_parse.rl: lookAheadWSP"]}
{"id": "C62", "title": "What the other side answers is what the application hears", "statement": "A 100 is reported as Proceeding and a 180 or 183 as Ringing; the first 200 to the INVITE is acknowledged and reported as Answered once, repetitions are acknowledged and not reported; a 200 to the BYE is reported as Hangup; a refusal is acknowledged and handed over as the error; success statuses are no errors; after 503 other servers are tried.", "quantifier": "every dialog history, every response to the last request", "why_tests_cant": "Any history of responses, requests, timers and hang-ups may come before.", "anchors": ["dialog/dialog.go: handleResponse, transition", "sip/errors.go: ResponseError"]}
{"id": "C63", "title": "Media addresses come from the call, in order", "statement": "The media addresses an application receives are, in order, among those offered by messages of its own call, each at most once; an offer in a re-INVITE is reported before it is answered.", "quantifier": "every dialog history", "why_tests_cant": "All histories, with messages of other calls in between.", "anchors": ["dialog/dialog.go: handleResponse, handleRequest, checkSDP"]}
{"id": "C64", "title": "A redirected call is tried at the new address", "statement": "After a 301 or 302 to the request in progress the response is acknowledged and the same request, with the same Call-ID, CSeq, From, To and body, is sent to the address in the Contact, with a new branch and without the old route.", "quantifier": "every dialog history, every redirecting response", "why_tests_cant": "Histories; the redirected request may have been retransmitted, may be an INVITE or BYE.", "anchors": ["dialog/dialog.go: handleResponse, sendRequest, popRoute, connect"]}
{"id": "C65", "title": "Requests say truly where answers are to be sent", "statement": "The first Via and the Contact of a request, and a session description without address, name the local address of the socket the request is sent from.", "quantifier": "every dialog history, every network configuration", "why_tests_cant": "Several interfaces, failover between servers.", "anchors": ["dialog/dialog.go: connect, populate", "dialog/messages.go: PopulateMessage"]}
{"id": "C66", "title": "A BYE of the other side ends the call", "statement": "A BYE of the call, in order, is answered 200, Hangup is published, and nothing is sent afterwards.", "quantifier": "every dialog history", "why_tests_cant": "All histories.", "anchors": ["dialog/dialog.go: handleRequest, transition"]}
{"id": "C67", "title": "Strangers cannot disturb a call", "statement": "A message that belongs to another call, or a response to another request than the last, changes nothing of what the dialog does afterwards, apart from being answered; nor does a message that is refused for its version or its Max-Forwards.", "quantifier": "every dialog history, every such message, everything that happens afterwards", "why_tests_cant": "Compares two unbounded histories.", "anchors": ["dialog/dialog.go: handleMessage, handleResponse, handleRequest"]}
{"id": "C68", "title": "A call that cannot be placed is reported", "statement": "If no address is found for the destination, or none can be dialled, the application is told so, after every address was tried once in order; nothing is sent and the channels are closed.", "quantifier": "every INVITE, every resolver and network", "why_tests_cant": "Any number of addresses.", "anchors": ["dialog/dialog.go: NewDialog, run, sendRequest, popRoute, connect", "dialog/route.go: RouteAddress"]}
{"id": "C69", "title": "The requests of a call go where they are meant to go", "statement": "Every INVITE goes to the target and along the route given by the application, or to the Contact of a redirection; every BYE goes to the Contact of the other side along the proxies that recorded themselves. The request URI and Route sent, and the address it is sent to, are those that routing gives; repetitions and failover included.", "quantifier": "every dialog history, every route set, every resolver and network", "why_tests_cant": "Histories with redirections, failover and re-INVITEs; route sets of any length.", "anchors": ["dialog/dialog.go: sendRequest, popRoute, connect, handleResponse, sendHangup", "dialog/route.go: RouteMessage, RouteAddress", "dialog/messages.go: NewBye"]}
{"id": "C70", "title": "A receiver delivers what has arrived", "statement": "A message delivered on the channel of a transport is the one in the datagram, changed only as RFC 3261 and RFC 3581 say: the source is noted in the top Via of a request, a route that led here is removed, a request URI moved by a strict router is restored. Datagrams that hold no message are dropped, others are not.", "quantifier": "every datagram, every source and local address", "why_tests_cant": "All datagrams, all lists of Vias, routes and parameters.", "anchors": ["dialog/receiver.go: ReceiveMessages, addReceived, addTimestamp, fixMessagesFromStrictRouters"]}
{"id": "C71", "title": "A message that is sent goes out complete, to its next hop", "statement": "What a transport hands to the socket for a request is the request given, completed with what it lacked, with one hop less left and as routing wants it, and goes to the address (port 5060 unless given) of its next hop; a response goes where its Via says, without our own Via. Success is reported only if the datagram went out.", "quantifier": "every message, every transport, resolver and socket", "why_tests_cant": "All messages and route sets.", "anchors": ["dialog/transport.go: Send", "dialog/route.go: PopulateMessage, RouteMessage"]}
{"id": "C72", "title": "A transport names its own socket", "statement": "The Via and the Contact of a new transport name the address its socket is bound to, the rest of the Contact is as given; so responses to its requests reach the socket, and requests routed by its Contact are recognised.", "quantifier": "every Contact, every outcome of binding the socket", "why_tests_cant": "The port is chosen by the operating system.", "anchors": ["dialog/transport.go: NewTransport", "dialog/receiver.go: ReceiveMessages"]}
{"id": "C73", "title": "Between two transports the answer finds its request", "statement": "A request sent by one transport and received by another is answered with the Vias it had in the datagram; the response is sent back to where the request came from, delivered there, and recognised as the answer to that request, whatever the address translation between them.", "quantifier": "every request that can be written, every status, every pair of transports and source address", "why_tests_cant": "Composes writing, parsing, noting the source, answering, routing, writing, parsing and matching, for all messages.", "anchors": ["dialog/transport.go: Send", "dialog/receiver.go: ReceiveMessages", "dialog/messages.go: NewResponse, ResponseMatch", "sip/via.go: Append, CompareHostPort"]}
{"id": "C74", "title": "A request made with NewRequest starts a transaction of its own", "statement": "NewRequest builds a request of the given method to the given address, from the given one or else the transport's Contact, with a new Call-ID, CSeq number, branch and tag and nothing else; sent, it reaches the host and port of the recipient's URI and gains only the transport's Contact, Max-Forwards and, if wanted, the time.", "quantifier": "every method, recipient, sender, transport and generated identifiers", "why_tests_cant": "All addresses and transports.", "anchors": ["dialog/messages.go: NewRequest", "sip/addr.go: Copy, Or, Tag", "sip/via.go: Copy, Branch", "dialog/transport.go: Send"]}
{"id": "C75", "title": "A new session description says what it was made from", "statement": "The text of sdp.New(addr, codecs...) is read by sdp.Parse as a description with this address and port, exactly these codecs in this order, both directions, and an origin with a numeric identifier and this address; every field left blank in a description is read back as the default that String() writes.", "quantifier": "every address, port, origin identifier and non-empty list of codecs whose texts fit on a line and whose payload types differ", "why_tests_cant": "Any list of codecs, any address and any random identifier; the reader's defaults differ from the writer's.", "anchors": ["sdp/sdp.go: New, SDP.Append, Parse", "sdp/origin.go: Origin.Append", "sdp/codecs.go: ULAWCodec, DTMFCodec, Opus"]}
{"id": "C76", "title": "ParseMsg accepts exactly the messages of its grammar, and reads each as the grammar says", "statement": "There is a grammar of messages (start line, header fields, lists of Vias and addresses, parameters, quoted strings, white space and folding, body) such that ParseMsg accepts a text and returns a message if and only if the grammar says that the text is a text of this message; hence each text has at most one meaning.", "quantifier": "every byte string, every message", "why_tests_cant": "All texts: a scanner generated from a grammar of several hundred states can differ from the grammar anywhere.", "anchors": ["sip/sip.rl", "sip/msg_parse.rl: ParseMsg"]}
{"id": "C77", "title": "A message that was received can be passed on", "statement": "The text a message returned by ParseMsg is written as is accepted again and read as the same message, up to default values; a further hop changes nothing more.", "quantifier": "every text that is accepted, every message read from it", "why_tests_cant": "All accepted texts: what the parser lets in and what the serialiser writes are two independent pieces of code.", "anchors": ["sip/msg_parse.rl: ParseMsg", "sip/msg.go: Msg.Append", "sip/via.go: Append", "sip/addr.go: Append", "sip/uri.go: Append"]}
{"id": "C78", "title": "Nobody outside a call can bring it down, whatever datagrams they send", "statement": "A running dialog survives all datagrams, whoever sends them and whatever they contain, unless the datagram carries the Call-ID and is a new offer without audio or without Contact, or carries Call-ID, CSeq and branch of the last request and is a response describing a session without audio or a redirection of a BYE without Contact; each of these, and an ICMP error, does bring down every running call.", "quantifier": "every world, INVITE, sequence of events in which each message is what the receiver made of some datagram", "why_tests_cant": "All datagrams at all moments of all calls; composes the parser, the receiver and the dialog.", "anchors": ["dialog/dialog.go: handleMessage, handleResponse, handleRequest, checkSDP, sendHangup", "dialog/receiver.go: ReceiveMessages", "sip/msg_parse.rl: ParseMsg"]}
{"id": "C79", "title": "The phone's exit status tells whether the call took place", "statement": "The phone keeps running until the dialog has told how the call ended; then it exits, with status 0 if the call was answered and hung up and with status 1 if it failed or was hung up before it was answered. Closing of the dialog's channels never crashes it. (It does crash if its RTP socket fails, although it means to hang up.)", "quantifier": "every call, every order in which the phone reads its channels and the other things that happen to it, as long as the RTP socket works", "why_tests_cant": "A select statement chooses freely among eight channels; closed channels keep delivering nil.", "anchors": ["fone/main.go: main", "dialog/dialog.go: NewDialog, run", "rtp/session.go: NewSession"]}
{"id": "C80", "title": "The phone sends media only where the other side announced last, as one stream", "statement": "Every RTP packet the phone sends goes to the media address the dialog reported last, which some offer or answer of this call contains; before the first such address nothing is sent, and from then on every frame and every key is; all packets carry one source identifier and consecutive numbers, also across changes of the address.", "quantifier": "every call, every order of ticks, keys and news, every pattern of failing writes", "why_tests_cant": "All interleavings of signalling and media.", "anchors": ["fone/main.go: main", "rtp/session.go: Send, SendDTMF", "dialog/dialog.go: checkSDP"]}
{"id": "C81", "title": "Audio sent over RTP is heard at the other end as well as G.711 allows", "statement": "Send writes one packet carrying all 160 samples as mu-law; a session that receives it delivers one frame of 160 samples, each with the sign of the original and off by at most a 32nd of its magnitude plus 132 (louder ones at the limit). Over a network that loses nothing the frames heard are exactly the frames sent while the peer was known, in order, whatever keys and other packets are sent in between. SendRaw's payload and payload type arrive unchanged.", "quantifier": "every frame, every session, every history of operations", "why_tests_cant": "2^2560 frames; composes encoder, packet writer, packet reader and decoder over all histories.", "anchors": ["rtp/session.go: Send, SendRaw, SendDTMF, receiver", "rtp/rtp.go: Header.Write, Header.Read", "dsp/dsp_amd64.s: LinearToUlaw, UlawToLinear"]}
{"id": "C82", "title": "Reading a message takes time at most quadratic in its length", "statement": "The work ParseMsg does on the head of a message (passes of its loop, bytes copied or scanned again, list nodes walked over) is at most a constant times the square of the number of bytes, whatever the bytes are. It is not at most a constant times the number of bytes: blanks after an unquoted display name are scanned again at each blank, so a short header line with n blanks costs n*n/2.", "quantifier": "every byte string; for the lower bound every number of blanks", "why_tests_cant": "All inputs, including those made to be slow; time is not something a test of results observes.", "anchors": ["sip/msg_parse.rl: ParseMsg, lastAddr", "sip/sip.rl: AddrUnquotedDisplay"]}
{"id": "C83", "title": "The phone sends only media that both sides want", "statement": "Every RTP packet the phone sends is of a format its INVITE lists. It should also be of a format that the other side lists, and nothing should be sent to a side that rejects the audio with port 0 or marks its description sendonly. This holds only if no description of the other side ever restricts the media: the phone heeds the address and port and nothing else, so in every call an answer that lists other formats, has port 0 or asks for silence is sent mu-law all the same.", "quantifier": "every call, every answer and later offer, every order of ticks, keys and news", "why_tests_cant": "All session descriptions and all interleavings; composes dialog, phone and RTP session.", "anchors": ["dialog/dialog.go: checkSDP", "fone/main.go: main", "rtp/session.go: Send, SendDTMF", "sdp/sdp.go: SDP"]}
{"id": "C84", "title": "Each media of a session description is described by its own lines", "statement": "The lines after an m= line belong to that media: its address is that of its own c= line, or else that of the session, and its payload types mean what the rtpmap and fmtp lines of its own section say; a direction stated for one media is not stated of the other. sdp.Parse does so if all c= lines agree and no other section speaks of the same numbers. Otherwise it does not: in every description the first c= line counts for all media, the first rtpmap for a number counts for all media, and sendonly anywhere is said of the session.", "quantifier": "every text that is accepted, every section in it, every line added to it", "why_tests_cant": "All texts; a description with a single media, as tests use, shows none of it.", "anchors": ["sdp/sdp.go: Parse, populateCodecs"]}
{"id": "C85", "title": "Unknown lines of a session description do no harm", "statement": "A line that this package does not know (malformed, with an unknown key, an unknown attribute, or a media that is neither audio nor video), put anywhere after the version line of a description that is accepted, leaves the description accepted and read as before; well-formed ones are kept in order among Attrs and Other.", "quantifier": "every text that is accepted, every unknown line, every position", "why_tests_cant": "All texts and positions; other implementations may send any extension.", "anchors": ["sdp/sdp.go: Parse"]}
{"id": "C86", "title": "The listener hears the peer and nobody else, in the order spoken", "statement": "What an RTP session delivers is the audio of its peer alone, each frame once, in the order in which it was spoken. This holds if nobody else sends datagrams that look like audio and the network does no more than lose packets. It holds in no other case: the receiver looks neither at the source of a datagram nor at its sequence number, so a stranger's frame is heard wherever it arrives between the peer's, and frames are heard in the order, and as often, as their packets arrive.", "quantifier": "every sequence of datagrams from any sources, every history of sends, every order of arrival, repetition and loss", "why_tests_cant": "All networks and all interleavings with other senders; a test on one machine sees neither loss, nor reordering, nor strangers.", "anchors": ["rtp/session.go: receiver, Send"]}
{"id": "C87", "title": "Asking to hang up neither blocks the application nor is lost", "statement": "An application that reads all channels of a dialog may send on Hangup at any time: the send does not block, and the dialog gets to take the request unless the call has ended first. This holds as long as at most four requests wait. It does not hold for the fifth: from every state in which the dialog has news to tell or has ended, an application that keeps asking ends up blocked together with the dialog, for ever. And an application that leaves one channel unread cannot hang up any more once the dialog has news for that channel.", "quantifier": "every schedule of application and dialog, any number of requests to hang up", "why_tests_cant": "Depends on the interleaving of two goroutines over four channels; a deadlock needs a particular one.", "anchors": ["dialog/dialog.go: NewDialog, run, transition, checkSDP", "fone/main.go: main"]}
{"id": "C88", "title": "Every response answers a message, and every offer gets an answer", "statement": "Every response a dialog sends repeats what is to be repeated of a message it received before, and has a status for which that message gave reason. An INVITE of the other side that offers media is answered with a session description and a Contact. The latter never holds: in every call such an offer is heeded and answered 200, but no response of a dialog ever has a body or a Contact.", "quantifier": "every call, every sequence of messages, timers and failures", "why_tests_cant": "All histories; a test sees the response to one message.", "anchors": ["dialog/dialog.go: handleMessage, handleRequest, resendResponse", "dialog/messages.go: NewResponse"]}
{"id": "C89", "title": "The error for a refused call names status and reason on one line", "statement": "The text of the error an application is given when a request is refused is the status code, a colon and the reason phrase of the response, on one line. The first half is true; the second holds exactly if the phrase has no percent escape for CR or LF, and any text at all can be put behind the colon by the other side.", "quantifier": "every datagram that is accepted as a response, every text, every call", "why_tests_cant": "All datagrams; a test uses phrases like \"Busy Here\".", "anchors": ["sip/errors.go: ResponseError.Error", "sip/sip.rl: ReasonPhrase", "dialog/dialog.go: handleResponse", "fone/main.go: main"]}
{"id": "C90", "title": "Requests are retransmitted at the configured interval, and a silent party is reported in time", "statement": "Two transmissions of one request are never closer to each other than the configured interval. While nothing arrives, a request is given up only when its first transmission is maxResends + 1 intervals old. A call to a party that never says anything is reported as failed after the number of transmissions times the interval, plus the lateness of the timer for each.", "quantifier": "every call, every sequence of timed events in which the timer goes off no sooner than it was set for, every interval and number of retransmissions", "why_tests_cant": "All schedules and clocks; a test sees the times of one run.", "anchors": ["dialog/dialog.go: popRoute, resendRequest, run, flags resendInterval and maxResends"]}
{"id": "C91", "title": "The noise generator always delivers a sample", "statement": "For every seed that does not overflow, every volume and any number of earlier calls, the next call of Get returns: the search for a random point in the circle finds one after at most 129600 attempts, the point is never the centre (whose logarithm and quotient would be infinite), and the result is one coordinate times the factor and the volume, without its fraction and clipped to 16 bits. Two calls in a row deliver both coordinates of one point.", "quantifier": "every seed of magnitude less than 2^63 - 54773, every volume, every rounding of float64 arithmetic, any number of calls", "why_tests_cant": "The generator has 259200*134456*243000 states and a table; an endless loop or a NaN would need one of them.", "anchors": ["dsp/awgn.go: NewAWGN_DBOV, Get, ran1, fsaturate"]}
{"id": "C92", "title": "Lists in memory behave as lists, and rewriting a route leaves other messages alone", "statement": "Len, Last, Reversed and Detach do what their names say for every linked list of addresses or Via headers; Reversed and Detach leave everything in memory as it was and return new nodes. Rewriting a request for a strict router changes that request and nothing else, even if other messages share its route. The repair of a received request from a strict router happens in place: it changes nothing else if the routes are the message's own, and would shorten the route of any message that shares them.", "quantifier": "every memory, every list of any length, every message, every sharing of nodes between messages", "why_tests_cant": "All shapes of memory; a test looks at the one list it has made.", "anchors": ["sip/addr.go: Len, Last, Reversed, Copy", "sip/via.go: Last, Detach", "dialog/route.go: RouteMessage", "dialog/receiver.go: fixMessagesFromStrictRouters"]}
{"id": "C93", "title": "What the application puts into its INVITE is what is sent", "statement": "Every INVITE of a dialog, also a repeated one, one to another address or after a redirection, has the caller, the callee, the Call-ID, CSeq, headers and extension headers that the application gave to NewDialog, apart from what was missing, and the body it gave with missing addresses filled in; every request of the dialog, of any method, names the caller that was given, with one tag. So the phone calls under its user's name and public address, calls whom it was told to call, and offers its own RTP port.", "quantifier": "every INVITE given, every sequence of messages, timers and failures, every user, address, port and target", "why_tests_cant": "All histories; a test looks at the first INVITE of one call.", "anchors": ["dialog/dialog.go: NewDialog, sendRequest, popRoute, populate, handleResponse", "dialog/route.go: PopulateMessage, RouteMessage", "fone/main.go: main"]}
{"id": "C94", "title": "All that a call sends can be read", "statement": "Every message a dialog sends - INVITE, BYE, CANCEL, ACK and responses, first or repeated, to the first address or another one, before or after redirections - is accepted by ParseMsg and read as the message that was meant, with the defaults for what was left out, provided that the INVITE of the application and the messages of the other side are of the form that can be written (C14) and the sockets have IPv4 addresses or names. So whoever receives an INVITE of the phone learns from it who calls, who is called, and the address, port and codecs for audio.", "quantifier": "every such INVITE, every sequence of such messages, timers and failures, every time stamp, shorter than there are CSeq numbers left", "why_tests_cant": "All histories and all contents of messages, which flow from one message into others; a test reads back one text.", "anchors": ["dialog/dialog.go: send, populate, sendHangup, sendResponse, handleMessage", "dialog/messages.go: NewResponse, NewAck, NewCancel, NewBye", "dialog/route.go: PopulateMessage, RouteMessage", "sip/msg.go: Append", "sip/sip.rl", "fone/main.go: main"]}
{"id": "C95", "title": "Two programs that use the library understand each other", "statement": "Every request that a dialog sends is heard by whoever receives it with this library, with its method, numbers, parties and body. If that program answers with NewResponse, a Contact and a body, and sends the answer with its transport, the dialog hears status, Contact and body as given, and recognises the answer: the application is told that the call rings, is answered (and where to send audio), is refused or is over, and the ACK goes to the Contact and is heard as one. This fails for a caller whose socket has port 5060: whatever is answered to it, and whatever happens afterwards, all is as if the answer had not arrived.", "quantifier": "every call, every sequence of messages, timers and failures before the answer, every status from 100 to 999, every Contact and body that can be written, every source address", "why_tests_cant": "Composes two programs, a network of texts and all histories of a call; a test plays one call, and from one port.", "anchors": ["dialog/dialog.go: run, send, handleResponse", "dialog/messages.go: NewResponse, NewAck, ResponseMatch", "dialog/transport.go: Send", "dialog/receiver.go: ReceiveMessages", "sip/msg.go: Append", "sip/sip.rl", "sip/via.go: Append"]}
{"id": "C96", "title": "Max-Forwards limits a call, and the documented limits do not", "statement": "The INVITE of a dialog is transmitted with a Max-Forwards that starts one below what the application gave (70 if nothing) and is one less each time, whether the transmission is a repetition, goes to another address or follows a redirection; it is never below one, so there are fewer transmissions than Max-Forwards says. The limits documented in dialog/prefs.go should hold as well: at most MaxAttempts (10) attempts and no message longer than MTU (1450). They do not: every call that can be placed is redirected as often as Max-Forwards allows, and an INVITE is written whatever its length.", "quantifier": "every INVITE, every sequence of messages, timers and failures, every number of redirections and every length", "why_tests_cant": "All histories and lengths; a test would need to know that nothing reads the variables.", "anchors": ["dialog/prefs.go", "dialog/dialog.go: send, sendRequest, popRoute, handleResponse"]}
{"id": "C97", "title": "A call that can be placed is placed", "statement": "If the destination of an INVITE has addresses and one of them can be dialled, NewDialog dials the addresses before it in order, then writes the INVITE to the socket of the first that can be dialled, complete, with a branch and with what the application gave; nothing is reported to the application and the call goes on.", "quantifier": "every INVITE with Max-Forwards other than 1, every list of addresses, every number of dead addresses before the first live one", "why_tests_cant": "All lists of addresses and all states of the network; a test has one server.", "anchors": ["dialog/dialog.go: NewDialog, sendRequest, popRoute, connect, populate, send", "dialog/route.go: RouteMessage, RouteAddress"]}
{"id": "C98", "title": "The other side can hang up, and knows that it has", "statement": "A request that a program with this library sends within a call - above all BYE, but also OPTIONS, a new INVITE or any other method - is heard by the dialog, and the one thing the dialog sends then is an answer. The program hears that answer, with the status that is due (200 for BYE, OPTIONS and INVITE, 405 for others), and the library recognises it as the answer to the request; after BYE the application of the dialog hears that the call is over. This fails for a program whose Via has port 5060: it hears the answer and does not recognise it.", "quantifier": "every call, every sequence of messages, timers and failures before, every request within the call that can be written and is numbered in order, every source address", "why_tests_cant": "Composes two programs, a network of texts and all histories of a call; a test plays one call, and from one port.", "anchors": ["dialog/dialog.go: run, handleRequest, sendResponse, send", "dialog/messages.go: NewResponse, ResponseMatch", "dialog/receiver.go: ReceiveMessages", "sip/msg.go: Append", "sip/sip.rl", "sip/via.go: Append"]}
{"id": "C99", "title": "A call can be made with the transport alone", "statement": "Every request that can be written and that a transport sends is heard by whoever receives it with this library, with its method, numbers, parties and body. The answer to it that the other program makes with NewResponse, a Contact and a body comes back with status, Contact and body as given, and ResponseMatch accepts it exactly if the Via of the request does not name port 5060. So a program needs no dialog to make a call: it sends an INVITE made with NewRequest and hears the answer; the ACK that NewAck makes of it is heard by the other program with the Call-ID, parties and number of the INVITE, and AckMatch accepts it for the answer; the BYE that NewBye makes is heard with the next number, and whatever is answered to it is recognised. The CANCEL that NewCancel makes of a request, and the request itself when it is sent again, are heard with the Call-ID, number, parties and branch of the request; the answer to the CANCEL is recognised, and what answers the second transmission answers the first.", "quantifier": "every transport, every request that can be written, every random identifier, every status from 100 to 999, every Contact and body that can be written, every source address", "why_tests_cant": "Composes two programs and four messages over all their contents; a test plays one call, and from one port.", "anchors": ["dialog/messages.go: NewRequest, NewResponse, NewAck, NewCancel, NewBye, ResponseMatch, AckMatch", "dialog/transport.go: Send", "dialog/route.go: PopulateMessage, RouteMessage", "dialog/receiver.go: ReceiveMessages", "sip/msg.go: Append", "sip/sip.rl", "example/echo2/echo2_test.go"]}
{"id": "C100", "title": "A call works from beginning to end", "statement": "Suppose a destination that can be dialled, sockets that work and are not at port 5060 (C95), and on the other side a program that uses this library and says directly where it is to be reached. Then the INVITE leaves; when the program accepts it, the application hears the media address, if there is one, and that the call is answered, and an ACK leaves for the address the program gave; when the application hangs up, a BYE leaves for that address; and when the program accepts it, the application hears that the call is over and everything is closed. Nothing else is sent or reported, and there is no error. More generally, whenever a call is up, whatever happened before, hanging up sends one BYE to the address that the other side gave.", "quantifier": "every INVITE that can be written, every list of addresses, every answer that can be written, every source address, every random identifier; for hanging up, every history of the call", "why_tests_cant": "Liveness of the whole exchange for all contents of the messages; a test plays one call between two fixed programs.", "anchors": ["dialog/dialog.go: NewDialog, run, sendRequest, handleResponse, sendHangup, cleanup", "dialog/messages.go: NewResponse, NewAck, NewBye, ResponseMatch", "dialog/transport.go: Send", "dialog/receiver.go: ReceiveMessages", "sip/msg.go: Append", "sip/sip.rl"]}
{"id": "C101", "title": "A call ends in order, however it ends", "statement": "Under the conditions of C100, three other calls run from beginning to end as they should. If the program that has accepted the call hangs up, a 200 leaves that the program recognises, the application hears that the call is over, and everything is closed. If the program refuses the call and gives a Contact, an ACK for the refusal leaves, the application gets the refusal, with status, Contact and body as given, as the error and as the last thing, and everything is closed. If the application hangs up before there is an answer, a CANCEL for the INVITE leaves, and when the program then refuses the INVITE, the call ends as a refused one. Nothing else is sent or reported. More generally, as long as a call is not answered, whatever happened before, hanging up sends one CANCEL for the last INVITE if writing works, and the dialog goes on.", "quantifier": "every INVITE that can be written, every list of addresses, every answer, refusal and BYE that can be written, every source address, every random identifier; for cancelling, every history of the call", "why_tests_cant": "Liveness of whole exchanges for all contents of the messages; a test plays one call between two fixed programs.", "anchors": ["dialog/dialog.go: NewDialog, run, sendRequest, handleResponse, handleRequest, sendHangup, cleanup", "dialog/messages.go: NewResponse, NewAck, NewCancel, ResponseMatch", "dialog/transport.go: Send", "dialog/receiver.go: ReceiveMessages", "sip/msg.go: Append", "sip/sip.rl"]}
