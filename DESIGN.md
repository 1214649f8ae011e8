# Formal model of jart/gosip — design

The model is in `lean/Verif/`. It is written in Lean 4.33.0; `lake build` in `lean/`
checks everything. The properties are listed in `properties.jsonl` and the
theorem names that settle them in `MANIFEST.json`.

## 1. Trusted base

* Lean's kernel, and the axioms `propext`, `Classical.choice`, `Quot.sound`.
  No other axiom, no `sorry`, no `native_decide`, no `bv_decide`.
* The reading of the Go source into Lean. Nothing is compiled or run from `/repo`.
  Every definition of the model cites the file and lines it models.
* For the two Ragel generated parsers (`sip/uri_parse.go`, 2689 lines, and
  `sip/msg_parse.go`, 17892 lines): the script `tools/extract.py` + `tools/gentables.py`,
  which reads the generated *Go* file (not the `.rl` grammar) as text, evaluates
  the decision code of each state on each input symbol, and prints the
  transition tables as Lean definitions. The scripts check that each action chunk
  has exactly the Go text that the hand written Lean action interpreter models,
  and fail otherwise. The tables are committed.
* Go's semantics as I know it for the fragment used: 64-bit `int`, wrapping
  unsigned arithmetic, slices with length and capacity, panics for out of range
  indexes and nil dereferences.
* Go's standard library functions, modelled from their documentation:
  `strconv.Itoa/Atoi/ParseUint/FormatInt`, `strings.Split/Index/HasPrefix/EqualFold`,
  `bytes.Buffer`, `bytes.IndexByte`, `bytes.Split`, `hex.EncodeToString`, `net.JoinHostPort`.
  `net.ParseIP`, DNS lookups, sockets, clocks and random sources are parameters
  (universally quantified in the theorems).
* The tables of invariants (`inv`, `rank`, names of states and regions in `Sip/MsgSafe.lean`, `Sip/Gr*.lean`), which scripts
  computed, are *not* trusted: the kernel checks them against the transition table.
* x86-64 semantics of the 15 instructions in `dsp/dsp_amd64.s` (64-bit two's complement
  arithmetic and flags, `BSR`, `PADDSW`).

## 2. Modelling conventions

* A byte is `UInt8`; Go strings and byte slices are `List UInt8` (`Bytes`). Aliasing is
  not represented in the value model; where a property is *about* aliasing (C42, C44, C92)
  a separate model with explicit heap cells is used.
* `int` is `Int` with explicit wrapping to 64 bits where arithmetic occurs on unbounded data;
  `uint8/16/32` are Lean's fixed width types.
* Errors are values, nil pointers are `Option.none`, linked lists with nil tails are `List`s
  (head = the node the pointer points to). Cyclic lists are not representable: no function of
  the code builds one.
* A Go panic is the explicit outcome `panic`. Totality theorems say it is never reached
  (or exhibit an input on which it is).
* Loops are structural recursion or take fuel; running out of fuel is an explicit outcome,
  and the termination theorem says it does not happen.
* The dialog goroutine is a state machine driven by a list of events (message, timer, socket
  error, hang-up) producing a list of outputs (datagrams, channel sends). Channel hand-shakes
  between goroutines, which matter for C48 and C49, are modelled as interleaved transition systems.
* What comes from outside (resolver, generated identifiers, clock, whether a socket can be opened or a write succeeds, whether
  the receiver happens to be delivering a message when its socket is closed) is a record of parameters (`World`); theorems
  quantify over all of it and say in a hypothesis what they assume of it.
* Methods called on a nil `*net.UDPConn` are panics, except those that Go's library guards (`Close`, writes: an error).
* Functions of the library that parse numbers are specified by `atoi_iff` and `parseUint_iff`, which say for every text what the
  result is; `strings.EqualFold` is modelled for ASCII:
  in Go the Kelvin sign also equals `k`, and so on; such names cannot occur in parsed headers, only in URI parameters (escaped).
* Work (C82) is counted beside the machine by a separate function and does not affect results.

## 3. What is not modelled

* Of `fone/main.go`: curses, PulseAudio, flags and the web service telling the public address (its loop and its INVITE are
  modelled, C79 and C80). `dialog/trace.go` (log output), log lines in general.
* The limits of floating point in `dsp/awgn.go`: numbers are rationals, rounded with the precision of 53 bits after each operation, but not limited in size; `math.Log` and `math.Sqrt` are any functions with the right signs; the volume is any number (`math.Pow` is not modelled). A compiler that fuses multiplication and addition (not on amd64) is not modelled.
* Memory consumption, real time, and performance except for the work of `ParseMsg` (C82).
* `AddressRoute` DNS resolution itself, and UDP (loss, duplication and reordering are covered by quantifying
  over arbitrary incoming event sequences).
* The Go runtime: scheduling fairness, garbage collection, data races (the code has one writer per structure except
  as described in C42/C44).

## 4. Plan per property

| id | model | proof |
|----|-------|-------|
| C01 | URI table machine with explicit scratch buffer and panics | invariant `amt ≤ p ≤ len` by induction over the input |
| C02 | same; independent grammar as a relation between text and URI | completeness by composing runs over each loop state, soundness by inverting runs |
| C03 | `URI.Append` | serialised text satisfies the grammar of C02 with the same URI; false for header bytes `&`, for Pass without User, for hosts with upper case: negations + partial; `C03_uri_round_trip_iff` says for which URIs exactly it holds |
| C04 | `appendEscaped`, `URI.Append` | membership by induction |
| C05 | `appendEscaped`, spec decoder | induction |
| C06 | masks computed as in `init` | decision over the 256 bytes, lifted |
| C07, C08 | message table machine: explicit `p`, `mark`, buffer, pointers, panics, fuel | one abstract interpretation: a per-state invariant table checked by the kernel against all 5511 transition ranges, lifted by induction on steps; a potential function, checked over the table, for termination in linearly many passes |
| C09, C10 | same | history invariant attached to the same abstract interpretation |
| C11, C61 | streaming presentation of the machine, epilogue | every accepted text is split into lines; the last Content-Length and Content-Type line determine length and type; false for lengths ≥ 2^63 and bodies that begin with a blank: negations + partials |
| C12 | streaming presentation | the run over a line after its name depends only on the header the name stands for |
| C13 | streaming presentation | the lists of a message are the concatenation of what its lines give alone; the run over two joined values is the run over the first, one over the comma and one over the second; false for a URI without brackets followed by separator and blank: negation + partial |
| C14 | `Msg.Append` + table | run lemmas per header, composition: the message read back is computed for every message in the library's grammar; false as stated: exact condition + negations |
| C15, C16 | `appendQuoted`, quoted-string states | induction over what quoting writes; false for values with blanks, bytes ≥ 128: exact condition |
| C17, C18 | lists | induction |
| C19–C22 | `sdp.Parse`, `Append` with explicit panics | invariants for counters ≤ lines; acceptance in both directions against a specification by lines (`Spec/Sdp.lean`: `C21_sdp_iff`); round trip via split/join lemmas |
| C23–C26 | `rtp.go`, `dtmf.go` | bit-vector arithmetic, decision over complete finite tables |
| C27–C29 | session state machine over histories | induction over the history |
| C30 | 64-bit arithmetic model of the assembly | segment analysis; finite tables lifted |
| C31 | memory model (function from sample index) | loop induction |
| C32 | 64-bit integer part of the generator | invariant; false for two seeds near the `int64` limits: negation + partial |
| C33 | `Listen` with the random stream and bind results as parameters | arithmetic, induction over attempts |
| C34–C36 | `dialog/messages.go` | direct + list lemmas |
| C37–C39 | `RouteMessage`, `fixMessagesFromStrictRouters` | case analysis against independent RFC text specification |
| C40 | receive loop body | false (request without Via): negation + partial |
| C41 | `addReceived` then `RouteMessage` | case analysis |
| C42 | heap model of the receive buffer | false: negation with two packets + partial for everything that is copied |
| C43 | `PopulateMessage` | case analysis |
| C44 | heap model | false for parameter nodes: negation + partial |
| C45 | send paths | false for the transport with Max-Forwards 1: negation + partial |
| C46–C47, C50–C53 | dialog state machine | invariants over event histories; several are false: negations + partials |
| C48 | two-goroutine transition system | false: a reachable deadlock; partial |
| C49 | two-goroutine transition system | invariant + progress measure |
| C54 | `util.go` with random bytes as parameter | direct |
| C55 | `RouteAddress` with DNS as parameter | induction |
| C56 | `MsgParseError.Error` | induction; position bound from C07 invariant |
| C57 | message machine | false for names that are proper prefixes of known names: negation + partial |
| C58 | `PopulateMessage`, `Transport.Send` | direct; false for the transport's own Via: negation + partial |
| C60 | streaming presentation | states are divided into parts, one for each kind of header; a part assigns its own field only; false for `l`: negation + partial |
| C59 | dialog state machine | induction over handlers: a handler stops exactly when its last output is an error or "hangup" |
| C62, C66 | dialog state machine | the step on such a message is computed for every state an invariant allows |
| C63 | dialog state machine | induction over the history: what a step adds to the reports is at most what its event offers |
| C64 | dialog state machine | computed step, with the invariants that keep the INVITE complete; false for BYE: negation + partial |
| C65 | dialog state machine | invariant tying every request to the socket it is written to; false for hosts after failover: negation + partial |
| C67 | dialog state machine | simulation: a dialog does not read what it has reported, and time is its only other state; false for other versions and Max-Forwards 0: negations + partial |
| C68 | dialog state machine | induction over the addresses |
| C69 | dialog state machine, routing | invariant: the current request is routed, the addresses left and the socket are those of its next hop |
| C70 | `receiveOne`: one turn of the receive loop | case analysis against a relation between datagram and message |
| C71 | `Transport.send` | case analysis, with C37, C38 and C43; negation for addresses without a port |
| C72 | `NewTransport` | case analysis |
| C73 | two transports: `Transport.send`, `receiveOne`, `newResponse`, `responseMatch` | composition of C14, C36, C38, C70 and C71; negation for port 5060 |
| C74 | `newRequest`, `Transport.send` | direct; composition with C71 |
| C75 | `sdp.New`, `SDP.filled` (what is written for blank fields) | the text of a description is that of its filled version; then C22 |
| C76 | the scanner `parseMsg`; grammar `Spec.MessageText` of texts and their meanings | each header kind: the states reached after the colon accept exactly the texts of the grammar, by a relation `Acc` on states and induction over the text; then line by line |
| C77 | `parseMsg`, `Msg.text` | what the grammar of C76 says of each field implies the conditions of C14, except those listed in `Spec.Relayable` |
| C78 | `receiveOne`, `dialog` | the parser gives every address a URI (C10), the receiver keeps that; the safety invariant of C52 with what is asked of messages cut down to what their handling needs; converse by running the handler |
| C79 | `Fone.phone`, `dialog` | the loop is a function of what `select` chooses; induction over it with C59 (what ends a call is told last, channels close after it) |
| C80 | `Fone.phone`, `Rtp.Sess`, `dialog` | invariant: the session's peer is the last one heard, the packets sent are the session's log; with C63 and C27 |
| C81 | `Rtp.Sess`, `receive`, the μ-law routines | the packet of `Send` is a complete frame (C29); decoding an encoded sample (C30); induction over the history |
| C82 | `Sip.MsgM.parseWork` (`Sip/Work.lean`), a count beside the machine of C07 | passes bounded linearly by a potential checked over the table (`Sip/MsgLinear.lean`); each pass bounded by the sizes in the invariant of C07; the slow message is followed symbolically, its acceptance is by C76 |
| C83 | `Fone.phone`, `Rtp.Sess`, `dialog` | invariant: the log holds payload types 0 and 101 only; with C80 for the address; negation for every call from C62 and C81 |
| C84 | `sdp.Parse` as characterised by C21 | `Spec/Sections.lean` says what belongs to a section; adding a line changes the fields of C21 as computed; negations for every description |
| C85 | `sdp.Parse` as characterised by C21 | adding a line (`Sdp/Insert.lean`) leaves all fields but attributes and other lines as they were |
| C86 | `receiver` on datagrams with their sources, composed with `Send` | C29 says what is delivered for any datagrams; the packets of a history are related to its frames one by one, then any order of arrival |
| C87 | the dialog and an application as two goroutines over the three news channels and the channel for hanging up (`Dialog/Hangup.lean`) | invariant: requests made = taken + waiting + being made; blocked states characterised exactly; schedules constructed |
| C88 | the dialog (`Dialog/Machine.lean`) | invariant of the loop: all responses sent, and the one to be repeated, are echoes of messages received; with C63 for the offer |
| C89 | `ResponseError.Error` (`Sip/ResponseError.lean`) with the parser and the dialog | the grammar of C76 read off at the start line; every text can be percent escaped, and the rest of the datagram does not depend on the phrase; with C62 for the call |
| C90 | the dialog with times for the events (`Spec/Timing.lean`): what an event brings about happens at its time | `Dialog/Fresh.lean`: only the timer of the request sends a request again, all other events send new branches (a world without retransmissions behaves the same for them); the counter of retransmissions is the number of transmissions; C47 for the silent party |
| C91 | `Get` with an arithmetic of which only the precision is known (`Dsp/Noise.lean`) | the first and third generators have full period (`Dsp/Lcg.lean`); in one period of the first the squares of the coordinates add up to a third of the draws, but if all points were outside the circle, they would add up to half (`Dsp/NoiseLoop.lean`); only one value of the first generator stands for 0, each place of the table is renewed within a period of the third generator, which is shorter than that of the first, so that no two places hold the same |
| C92 | the loops of `Len`, `Last`, `Reversed`, `Detach`, and the rewriting of routes, on the heap of C44 (`Sip/HeapLists.lean`) | induction over the nodes; a finite list does not come back to a node; frame lemmas (`Sip/HeapNodes.lean`, `Sip/HeapRoute.lean`) |
| C93 | the dialog (`Dialog/Machine.lean`) and the INVITE of the phone (`Fone/Main.lean`) | invariant over the acts of the dialog (`Dialog/Carried.lean`): the stored INVITE and all that were sent carry what was given (`Spec/Carried.lean`) |
| C94 | the dialog (`Dialog/Machine.lean`), the writer and the reader of messages | invariant over the handlers (`Dialog/Readable.lean`, `Dialog/ReadableLoop.lean`): what is remembered can be written (`Spec/Readable.lean`), so what is sent can be read by C14; one less CSeq number is left after each event |
| C95 | the caller's dialog (`Dialog/Machine.lean`), the texts between the programs, receiver and transport of the program that is called (`Dialog/Receive.lean`) | C94 for the text of a request, an invariant (`Dialog/Lone.lean`: one Via with a branch, CSeq with the method), C70 and C71 for receiver and transport, C14 for the way back, C62 for what the dialog then does (`Spec/Exchange.lean`) |
| C96 | the dialog (`Dialog/Machine.lean`); the documented limits in `Spec/Prefs.lean` | invariant over the acts of the dialog (`Dialog/Countdown.lean`): transmissions of the INVITE and the Max-Forwards of the stored INVITE add up to the first value; the negations by induction over redirections (C64) and from C97 |
| C97 | `start`, `popRoutes`, `connect`, `attempt`, `send` of the dialog (`Dialog/Machine.lean`) | induction over the addresses that cannot be dialled (`Dialog/Placing.lean`), C93 for what the INVITE carries |
| C98 | the dialog (`Dialog/Machine.lean`), receiver (`Dialog/Receive.lean`), the texts between the programs | C14 and C70 for the request as the dialog gets it, which can be written again; C50 and C66 for what the dialog does; C94 for the text of its answer; C14 and C70 for the way back (`Spec/Asked.lean`, `Props/Asked.lean`) |
| C99 | `NewRequest`, `NewAck`, `NewBye`, `ResponseMatch`, `AckMatch` (`Dialog/Messages.lean`), `Transport.Send` and the receiver (`Dialog/Receive.lean`), the texts between the programs | C71 and C74 for the message sent; that it can be written, field by field; C14 and C70 for what is heard; C35 for the ACK and the BYE (`Spec/Carrier.lean`, `Props/LowLevel.lean`) |
| C100 | the dialog (`Dialog/Machine.lean`) and the other program's receiver and transport (`Dialog/Receive.lean`) together, from the INVITE to the 200 for the BYE | C97 for the INVITE, C95 for the answers, and that hanging up sends a BYE if the other side can be dialled (`Spec/WholeCall.lean`, `Props/WholeCall.lean`) |
| C101 | as C100, for the calls that the other side ends or refuses and those that the application gives up | C97 for the INVITE, C95 and C62 for the answers, C98 for the BYE, C53 for the CANCEL, and that cancelling goes on if writing works (`Props/WholeEnd.lean`) |

## 5. Disagreements between the code and the properties

Each has Lean theorems with a concrete witness; the names are in MANIFEST.json and the sources of the theorems say what
happens. The most consequential first.

* C48, C47, C53: `cleanupSock` closes the socket and then waits for a message before it takes the error, but the receiver offers
  the error first. Unless a message is just being received, both wait for ever. So after most calls the channels are never
  closed, failover to a second address never happens, and hanging up a call whose other side is at another address than the
  INVITE was sent to sends no BYE.
* C52: five ways to crash a dialog: an ICMP refusal (`dls.sock` is set to nil and then used for a log line), a session description
  without audio, a re-INVITE without Contact followed by hanging up, a BYE redirected to nowhere, a message without Via.
* C40: a request without Via, or with a Route without URI, crashes the receiver.
* C34: the phrase of 484 is `Address StatusIncomplete`; those of 500 and 504 are not the ones of RFC 3261.
* C96: nothing reads the variables of `dialog/prefs.go` (`MTU`, `MaxAttempts`, `RetransmitAttempts`, `GiveupTimeout`, `MaxForwards`,
  `TransportTrace` and the others), so changing them has no effect: redirections are followed until Max-Forwards is used up (69 times
  by default), and messages longer than the MTU are written.
* C73: a transport at port 5060 never recognises the answers to its requests: 5060 is left out of the text of the Via, the echo of
  it is read as port 0, and 0 is not 5060. A Via without a port is echoed with `:0`. So a dialog whose socket has that port hears
  nothing of what a program with this library answers (C95), and a program at that port does not know its own BYE for
  answered (C98).
* C71: `Transport.Send` sends a request whose next hop names no port to port 0.
* C47: after a 503 the list of addresses is cleared before the next one is asked for. Retransmissions use up Max-Forwards.
* C46, C53: a late provisional response takes an answered call back; hanging up then sends a CANCEL.
* C53: after a re-INVITE of the other side, BYE is addressed to the caller itself.
* C50: ACKs and responses of unknown calls are answered. C51: after hanging up, a final response is not acknowledged.
* C45, C58: `Transport.Send` writes Max-Forwards 1 as 70, and reuses the branch of its own Via for every request.
* C03, C04: `&` in URI headers is not escaped. C16: a bare LF passes quoting. C10: statuses below 100 are accepted.
* C32: seeds near the ends of the 64-bit range leave the table.
* C42: extension header values and payloads that are not SDP are slices of the receive buffer, so the next datagram overwrites them.
* C44: copies lose display names and share parameter, header and payload nodes with the original.
* C60: the compact header `l` (Content-Length) also sets Max-Forwards, Expires and Min-Expires.
* C61: a message whose body begins with a space or a tab is rejected. C11: Content-Length is computed modulo 2^64.
* C13: `Contact: sip:a, sip:b` and `Contact: sip:a; x=y` are rejected (no angle brackets, blank after the separator).
* C14: a message is read back with Via port 5060 gone, Max-Forwards 0 as 70, `Retry-After` as an extension header under a wrong
  name, `Accept-Contact` and an empty body gone. Without From, To or Call-ID, or with an IPv6 address in a Via, the text written cannot
  be read at all.
* C15: parameter values of several words, values and display names with bytes above 127 (so any UTF-8 that is not ASCII), and display
  names with spaces at either end are not read back as written; with a bare LF the text is refused.
* C57: headers whose name is the beginning of a known name are rejected.
* C62: statuses 201 to 299 are reported as errors; a 503 as "failed to contact"; an INVITE of the other side before its 200 keeps
  "answered" from being published, and hanging up sends CANCEL. C64: a redirected BYE makes the dialog send the INVITE again.
* C65: after failover to a server reached through another interface, Via, Contact and session description name the first one: all INVITEs of a call name the same host (`C65_first_interface`).
* C82: white space after an unquoted display name makes `ParseMsg` quadratic: the name is trimmed again at every blank.
* C83: of a session description only address and port are heeded: the phone sends μ-law to a side that lists other formats, that put the call on hold with `sendonly`, or that rejected the audio with port 0.
* C84: `sdp.Parse` does not know sections: the first `c=` line is the address of all media (RFC 4566 §5.7: that of the section takes precedence), the first `a=rtpmap` for a number is that of all media, a direction is that of the session. A call answered with video first and addresses per media sends its audio to the host of the video.
* C86: the RTP receiver looks neither at the source of a packet nor at its sequence number: anybody who knows the port is heard, and packets are played in the order, and as often, as they arrive.
* C87: the channel for hanging up holds four requests and the channels for news none. An application that asks a fifth time while the dialog has news to tell, or after it has ended, blocks for ever, and the dialog with it.
* C88: the 200 to an INVITE of the other side has neither session description nor Contact, so the offer in it, which is heeded, is never answered.
* C89: the reason phrase is stored with its percent escapes undone, so the error text (which `fone` prints on the terminal) may be anything, with line breaks and control characters.
* C90: the interval is constant and short. With the default flags a call to one address that does not answer at once is given up after 1.2 seconds; RFC 3261, 17.1.1.2, doubles the interval and waits 32 seconds.
* Universal versions (for every call, not only a demonstration) of the disagreements about unexpected ACKs, wrong versions, early INVITEs and hanging up are in `Props/CallAlways.lean`.
* C67: any datagram with a SIP version other than 2.0 ends the call.

## 6. Wrong programs

`seeded/batches/*.py` are edits of the model a realistic bug would make, each with the claim it breaks, the theorem that says
the claim, and a proof that the theorem's statement is false of the edited model (`tools/mutate.py` copies the project to a
scratch directory, applies the edit, proves the negation there, and rebuilds to see which theorems fail). The results are in
`seeded/LOG.jsonl`, one line for each attempt, with the theorems that were tightened because of it.
