import Verif.Sip.MsgActions

/-!
# Transition table of `sip/msg_parse.go`

Generated by `tools/gentables.py`; do not edit.

One definition per state: for each range of symbols `lo..hi`, the actions executed and the next
state, as found under the label `st_case_K` at the cited line. Symbols not listed lead to the error
state 0 without any action.
-/

namespace Gosip.Sip.MsgM

/-- Action sequence of the transitions below. -/
def a0 : List MAct := [.mark]

/-- Action sequence of the transitions below. -/
def a1 : List MAct := [.method]

/-- Action sequence of the transitions below. -/
def a2 : List MAct := []

/-- Action sequence of the transitions below. -/
def a3 : List MAct := [.requestURI]

/-- Action sequence of the transitions below. -/
def a4 : List MAct := [.versionMajor]

/-- Action sequence of the transitions below. -/
def a5 : List MAct := [.versionMinor]

/-- Action sequence of the transitions below. -/
def a6 : List MAct := [.statusCode]

/-- Action sequence of the transitions below. -/
def a7 : List MAct := [.start, .append]

/-- Action sequence of the transitions below. -/
def a8 : List MAct := [.start]

/-- Action sequence of the transitions below. -/
def a9 : List MAct := [.append]

/-- Action sequence of the transitions below. -/
def a10 : List MAct := [.reasonPhrase]

/-- Action sequence of the transitions below. -/
def a11 : List MAct := [.hexHi]

/-- Action sequence of the transitions below. -/
def a12 : List MAct := [.hexLo]

/-- Action sequence of the transitions below. -/
def a13 : List MAct := [.contentType]

/-- Action sequence of the transitions below. -/
def a14 : List MAct := [.start, .mark]

/-- Action sequence of the transitions below. -/
def a15 : List MAct := [.name]

/-- Action sequence of the transitions below. -/
def a16 : List MAct := [.viaParam, .via, .viaNew, .hold]

/-- Action sequence of the transitions below. -/
def a17 : List MAct := [.viaParam, .hold, .start]

/-- Action sequence of the transitions below. -/
def a18 : List MAct := [.viaParam, .via]

/-- Action sequence of the transitions below. -/
def a19 : List MAct := [.viaProtocol]

/-- Action sequence of the transitions below. -/
def a20 : List MAct := [.viaVersion]

/-- Action sequence of the transitions below. -/
def a21 : List MAct := [.viaTransport]

/-- Action sequence of the transitions below. -/
def a22 : List MAct := [.viaHost]

/-- Action sequence of the transitions below. -/
def a23 : List MAct := [.via, .viaNew, .hold]

/-- Action sequence of the transitions below. -/
def a24 : List MAct := [.viaPort]

/-- Action sequence of the transitions below. -/
def a25 : List MAct := [.hold, .start]

/-- Action sequence of the transitions below. -/
def a26 : List MAct := [.via]

/-- Action sequence of the transitions below. -/
def a27 : List MAct := [.addrParam, .addr, .hold]

/-- Action sequence of the transitions below. -/
def a28 : List MAct := [.addrParam, .hold]

/-- Action sequence of the transitions below. -/
def a29 : List MAct := [.addrParam, .addr]

/-- Action sequence of the transitions below. -/
def a30 : List MAct := [.addrUri]

/-- Action sequence of the transitions below. -/
def a31 : List MAct := [.addr, .hold]

/-- Action sequence of the transitions below. -/
def a32 : List MAct := [.hold]

/-- Action sequence of the transitions below. -/
def a33 : List MAct := [.addr]

/-- Action sequence of the transitions below. -/
def a34 : List MAct := [.addrUnquotedDisplay]

/-- Action sequence of the transitions below. -/
def a35 : List MAct := [.addrQuotedDisplay]

/-- Action sequence of the transitions below. -/
def a36 : List MAct := [.addrUri, .addr, .hold]

/-- Action sequence of the transitions below. -/
def a37 : List MAct := [.addrUri, .hold]

/-- Action sequence of the transitions below. -/
def a38 : List MAct := [.addrNew, .hold]

/-- Action sequence of the transitions below. -/
def a39 : List MAct := [.addrNew, .backtrack]

/-- Action sequence of the transitions below. -/
def a40 : List MAct := [.value]

/-- Action sequence of the transitions below. -/
def a41 : List MAct := [.valueNil, .hold]

/-- Action sequence of the transitions below. -/
def a42 : List MAct := [.mark, .hold]

/-- Action sequence of the transitions below. -/
def a43 : List MAct := [.setValue .acceptContact]

/-- Action sequence of the transitions below. -/
def a44 : List MAct := [.setValue .accept]

/-- Action sequence of the transitions below. -/
def a45 : List MAct := [.setValue .acceptEncoding]

/-- Action sequence of the transitions below. -/
def a46 : List MAct := [.setValue .acceptLanguage]

/-- Action sequence of the transitions below. -/
def a47 : List MAct := [.setValue .alertInfo]

/-- Action sequence of the transitions below. -/
def a48 : List MAct := [.setValue .allow]

/-- Action sequence of the transitions below. -/
def a49 : List MAct := [.setValue .allowEvents]

/-- Action sequence of the transitions below. -/
def a50 : List MAct := [.setValue .authenticationInfo]

/-- Action sequence of the transitions below. -/
def a51 : List MAct := [.setValue .authorization]

/-- Action sequence of the transitions below. -/
def a52 : List MAct := [.setValue .referredBy]

/-- Action sequence of the transitions below. -/
def a53 : List MAct := [.callID]

/-- Action sequence of the transitions below. -/
def a54 : List MAct := [.setValue .callInfo]

/-- Action sequence of the transitions below. -/
def a55 : List MAct := [.lastAddr .contact]

/-- Action sequence of the transitions below. -/
def a56 : List MAct := [.setValue .contentDisposition]

/-- Action sequence of the transitions below. -/
def a57 : List MAct := [.setValue .contentEncoding]

/-- Action sequence of the transitions below. -/
def a58 : List MAct := [.setValue .contentLanguage]

/-- Action sequence of the transitions below. -/
def a59 : List MAct := [.clen0, .contentLength]

/-- Action sequence of the transitions below. -/
def a60 : List MAct := [.contentLength]

/-- Action sequence of the transitions below. -/
def a61 : List MAct := [.cseq]

/-- Action sequence of the transitions below. -/
def a62 : List MAct := [.cseqMethod]

/-- Action sequence of the transitions below. -/
def a63 : List MAct := [.setValue .date]

/-- Action sequence of the transitions below. -/
def a64 : List MAct := [.setValue .errorInfo]

/-- Action sequence of the transitions below. -/
def a65 : List MAct := [.setValue .event]

/-- Action sequence of the transitions below. -/
def a66 : List MAct := [.expires0, .expires]

/-- Action sequence of the transitions below. -/
def a67 : List MAct := [.expires]

/-- Action sequence of the transitions below. -/
def a68 : List MAct := [.lastAddr .from]

/-- Action sequence of the transitions below. -/
def a69 : List MAct := [.setValue .inReplyTo]

/-- Action sequence of the transitions below. -/
def a70 : List MAct := [.setValue .supported]

/-- Action sequence of the transitions below. -/
def a71 : List MAct := [.clen0, .contentLength, .expires0, .expires, .maxForwards0, .maxForwards, .minExpires0, .minExpires]

/-- Action sequence of the transitions below. -/
def a72 : List MAct := [.contentLength, .expires, .maxForwards, .minExpires]

/-- Action sequence of the transitions below. -/
def a73 : List MAct := [.maxForwards0, .maxForwards]

/-- Action sequence of the transitions below. -/
def a74 : List MAct := [.maxForwards]

/-- Action sequence of the transitions below. -/
def a75 : List MAct := [.setValue .mimeVersion]

/-- Action sequence of the transitions below. -/
def a76 : List MAct := [.minExpires0, .minExpires]

/-- Action sequence of the transitions below. -/
def a77 : List MAct := [.minExpires]

/-- Action sequence of the transitions below. -/
def a78 : List MAct := [.setValue .organization]

/-- Action sequence of the transitions below. -/
def a79 : List MAct := [.lastAddr .pAssertedIdentity]

/-- Action sequence of the transitions below. -/
def a80 : List MAct := [.setValue .priority]

/-- Action sequence of the transitions below. -/
def a81 : List MAct := [.setValue .proxyAuthenticate]

/-- Action sequence of the transitions below. -/
def a82 : List MAct := [.setValue .proxyAuthorization]

/-- Action sequence of the transitions below. -/
def a83 : List MAct := [.setValue .proxyRequire]

/-- Action sequence of the transitions below. -/
def a84 : List MAct := [.setValue .referTo]

/-- Action sequence of the transitions below. -/
def a85 : List MAct := [.lastAddr .recordRoute]

/-- Action sequence of the transitions below. -/
def a86 : List MAct := [.lastAddr .remotePartyID]

/-- Action sequence of the transitions below. -/
def a87 : List MAct := [.setValue .replyTo]

/-- Action sequence of the transitions below. -/
def a88 : List MAct := [.setValue .require]

/-- Action sequence of the transitions below. -/
def a89 : List MAct := [.setValue .retryAfter]

/-- Action sequence of the transitions below. -/
def a90 : List MAct := [.lastAddr .route]

/-- Action sequence of the transitions below. -/
def a91 : List MAct := [.setValue .subject]

/-- Action sequence of the transitions below. -/
def a92 : List MAct := [.setValue .server]

/-- Action sequence of the transitions below. -/
def a93 : List MAct := [.lastAddr .to]

/-- Action sequence of the transitions below. -/
def a94 : List MAct := [.setValue .timestamp]

/-- Action sequence of the transitions below. -/
def a95 : List MAct := [.setValue .allow, .setValue .allowEvents]

/-- Action sequence of the transitions below. -/
def a96 : List MAct := [.setValue .unsupported]

/-- Action sequence of the transitions below. -/
def a97 : List MAct := [.setValue .userAgent]

/-- Action sequence of the transitions below. -/
def a98 : List MAct := [.viaNew, .hold]

/-- Action sequence of the transitions below. -/
def a99 : List MAct := [.setValue .warning]

/-- Action sequence of the transitions below. -/
def a100 : List MAct := [.setValue .wwwAuthenticate]

/-- `sip/msg_parse.go:1657` (`st_case_1`). -/
def s1 : List Row :=
  [⟨33, 33, a0, 2⟩,
   ⟨37, 37, a0, 2⟩,
   ⟨39, 39, a0, 2⟩,
   ⟨42, 43, a0, 2⟩,
   ⟨45, 46, a0, 2⟩,
   ⟨48, 57, a0, 2⟩,
   ⟨65, 82, a0, 2⟩,
   ⟨83, 83, a0, 14⟩,
   ⟨84, 90, a0, 2⟩,
   ⟨95, 122, a0, 2⟩,
   ⟨126, 126, a0, 2⟩]

/-- `sip/msg_parse.go:1716` (`st_case_2`). -/
def s2 : List Row :=
  [⟨32, 32, a1, 3⟩,
   ⟨33, 33, a2, 2⟩,
   ⟨37, 37, a2, 2⟩,
   ⟨39, 39, a2, 2⟩,
   ⟨42, 43, a2, 2⟩,
   ⟨45, 46, a2, 2⟩,
   ⟨48, 57, a2, 2⟩,
   ⟨65, 90, a2, 2⟩,
   ⟨95, 122, a2, 2⟩,
   ⟨126, 126, a2, 2⟩]

/-- `sip/msg_parse.go:1763` (`st_case_3`). -/
def s3 : List Row :=
  [⟨0, 31, a0, 4⟩,
   ⟨33, 255, a0, 4⟩]

/-- `sip/msg_parse.go:1779` (`st_case_4`). -/
def s4 : List Row :=
  [⟨0, 31, a2, 4⟩,
   ⟨32, 32, a3, 5⟩,
   ⟨33, 255, a2, 4⟩]

/-- `sip/msg_parse.go:1796` (`st_case_5`). -/
def s5 : List Row :=
  [⟨83, 83, a2, 6⟩]

/-- `sip/msg_parse.go:1806` (`st_case_6`). -/
def s6 : List Row :=
  [⟨73, 73, a2, 7⟩]

/-- `sip/msg_parse.go:1815` (`st_case_7`). -/
def s7 : List Row :=
  [⟨80, 80, a2, 8⟩]

/-- `sip/msg_parse.go:1824` (`st_case_8`). -/
def s8 : List Row :=
  [⟨47, 47, a2, 9⟩]

/-- `sip/msg_parse.go:1833` (`st_case_9`). -/
def s9 : List Row :=
  [⟨48, 57, a4, 10⟩]

/-- `sip/msg_parse.go:1848` (`st_case_10`). -/
def s10 : List Row :=
  [⟨46, 46, a2, 11⟩,
   ⟨48, 57, a4, 10⟩]

/-- `sip/msg_parse.go:1861` (`st_case_11`). -/
def s11 : List Row :=
  [⟨48, 57, a5, 12⟩]

/-- `sip/msg_parse.go:1876` (`st_case_12`). -/
def s12 : List Row :=
  [⟨48, 57, a5, 12⟩,
   ⟨269, 269, a2, 13⟩]

/-- `sip/msg_parse.go:1902` (`st_case_13`). -/
def s13 : List Row :=
  [⟨10, 10, a2, 280⟩]

/-- `sip/msg_parse.go:1929` (`st_case_14`). -/
def s14 : List Row :=
  [⟨32, 32, a1, 3⟩,
   ⟨33, 33, a2, 2⟩,
   ⟨37, 37, a2, 2⟩,
   ⟨39, 39, a2, 2⟩,
   ⟨42, 43, a2, 2⟩,
   ⟨45, 46, a2, 2⟩,
   ⟨48, 57, a2, 2⟩,
   ⟨65, 72, a2, 2⟩,
   ⟨73, 73, a2, 15⟩,
   ⟨74, 90, a2, 2⟩,
   ⟨95, 122, a2, 2⟩,
   ⟨126, 126, a2, 2⟩]

/-- `sip/msg_parse.go:1972` (`st_case_15`). -/
def s15 : List Row :=
  [⟨32, 32, a1, 3⟩,
   ⟨33, 33, a2, 2⟩,
   ⟨37, 37, a2, 2⟩,
   ⟨39, 39, a2, 2⟩,
   ⟨42, 43, a2, 2⟩,
   ⟨45, 46, a2, 2⟩,
   ⟨48, 57, a2, 2⟩,
   ⟨65, 79, a2, 2⟩,
   ⟨80, 80, a2, 16⟩,
   ⟨81, 90, a2, 2⟩,
   ⟨95, 122, a2, 2⟩,
   ⟨126, 126, a2, 2⟩]

/-- `sip/msg_parse.go:2014` (`st_case_16`). -/
def s16 : List Row :=
  [⟨32, 32, a1, 3⟩,
   ⟨33, 33, a2, 2⟩,
   ⟨37, 37, a2, 2⟩,
   ⟨39, 39, a2, 2⟩,
   ⟨42, 43, a2, 2⟩,
   ⟨45, 46, a2, 2⟩,
   ⟨47, 47, a2, 17⟩,
   ⟨48, 57, a2, 2⟩,
   ⟨65, 90, a2, 2⟩,
   ⟨95, 122, a2, 2⟩,
   ⟨126, 126, a2, 2⟩]

/-- `sip/msg_parse.go:2051` (`st_case_17`). -/
def s17 : List Row :=
  [⟨48, 57, a4, 18⟩]

/-- `sip/msg_parse.go:2066` (`st_case_18`). -/
def s18 : List Row :=
  [⟨46, 46, a2, 19⟩,
   ⟨48, 57, a4, 18⟩]

/-- `sip/msg_parse.go:2079` (`st_case_19`). -/
def s19 : List Row :=
  [⟨48, 57, a5, 20⟩]

/-- `sip/msg_parse.go:2094` (`st_case_20`). -/
def s20 : List Row :=
  [⟨32, 32, a2, 21⟩,
   ⟨48, 57, a5, 20⟩]

/-- `sip/msg_parse.go:2107` (`st_case_21`). -/
def s21 : List Row :=
  [⟨48, 57, a6, 22⟩]

/-- `sip/msg_parse.go:2122` (`st_case_22`). -/
def s22 : List Row :=
  [⟨48, 57, a6, 23⟩]

/-- `sip/msg_parse.go:2138` (`st_case_23`). -/
def s23 : List Row :=
  [⟨48, 57, a6, 24⟩]

/-- `sip/msg_parse.go:2154` (`st_case_24`). -/
def s24 : List Row :=
  [⟨32, 32, a2, 25⟩]

/-- `sip/msg_parse.go:2164` (`st_case_25`). -/
def s25 : List Row :=
  [⟨9, 9, a7, 26⟩,
   ⟨32, 33, a7, 26⟩,
   ⟨36, 36, a7, 26⟩,
   ⟨37, 37, a8, 27⟩,
   ⟨38, 59, a7, 26⟩,
   ⟨61, 61, a7, 26⟩,
   ⟨63, 90, a7, 26⟩,
   ⟨95, 95, a7, 26⟩,
   ⟨97, 122, a7, 26⟩,
   ⟨126, 126, a7, 26⟩,
   ⟨192, 223, a7, 29⟩,
   ⟨224, 239, a7, 30⟩,
   ⟨240, 247, a7, 31⟩,
   ⟨248, 251, a7, 32⟩,
   ⟨252, 253, a7, 33⟩]

/-- `sip/msg_parse.go:2248` (`st_case_26`). -/
def s26 : List Row :=
  [⟨9, 9, a9, 26⟩,
   ⟨32, 33, a9, 26⟩,
   ⟨36, 36, a9, 26⟩,
   ⟨37, 37, a2, 27⟩,
   ⟨38, 59, a9, 26⟩,
   ⟨61, 61, a9, 26⟩,
   ⟨63, 90, a9, 26⟩,
   ⟨95, 95, a9, 26⟩,
   ⟨97, 122, a9, 26⟩,
   ⟨126, 126, a9, 26⟩,
   ⟨192, 223, a9, 29⟩,
   ⟨224, 239, a9, 30⟩,
   ⟨240, 247, a9, 31⟩,
   ⟨248, 251, a9, 32⟩,
   ⟨252, 253, a9, 33⟩,
   ⟨269, 269, a10, 13⟩]

/-- `sip/msg_parse.go:2322` (`st_case_27`). -/
def s27 : List Row :=
  [⟨48, 57, a11, 28⟩,
   ⟨65, 70, a11, 28⟩,
   ⟨97, 102, a11, 28⟩]

/-- `sip/msg_parse.go:2347` (`st_case_28`). -/
def s28 : List Row :=
  [⟨48, 57, a12, 26⟩,
   ⟨65, 70, a12, 26⟩,
   ⟨97, 102, a12, 26⟩]

/-- `sip/msg_parse.go:2384` (`st_case_29`). -/
def s29 : List Row :=
  [⟨128, 191, a9, 26⟩]

/-- `sip/msg_parse.go:2412` (`st_case_30`). -/
def s30 : List Row :=
  [⟨128, 191, a9, 29⟩]

/-- `sip/msg_parse.go:2440` (`st_case_31`). -/
def s31 : List Row :=
  [⟨128, 191, a9, 30⟩]

/-- `sip/msg_parse.go:2468` (`st_case_32`). -/
def s32 : List Row :=
  [⟨128, 191, a9, 31⟩]

/-- `sip/msg_parse.go:2496` (`st_case_33`). -/
def s33 : List Row :=
  [⟨128, 191, a9, 32⟩]

/-- `sip/msg_parse.go:2506` (`st_case_34`). -/
def s34 : List Row :=
  [⟨33, 33, a0, 35⟩,
   ⟨37, 37, a0, 35⟩,
   ⟨39, 39, a0, 35⟩,
   ⟨42, 43, a0, 35⟩,
   ⟨45, 46, a0, 35⟩,
   ⟨48, 57, a0, 35⟩,
   ⟨65, 90, a0, 35⟩,
   ⟨95, 122, a0, 35⟩,
   ⟨126, 126, a0, 35⟩]

/-- `sip/msg_parse.go:2550` (`st_case_35`). -/
def s35 : List Row :=
  [⟨33, 33, a2, 35⟩,
   ⟨37, 37, a2, 35⟩,
   ⟨39, 39, a2, 35⟩,
   ⟨42, 43, a2, 35⟩,
   ⟨45, 46, a2, 35⟩,
   ⟨47, 47, a2, 36⟩,
   ⟨48, 57, a2, 35⟩,
   ⟨65, 90, a2, 35⟩,
   ⟨95, 122, a2, 35⟩,
   ⟨126, 126, a2, 35⟩]

/-- `sip/msg_parse.go:2586` (`st_case_36`). -/
def s36 : List Row :=
  [⟨33, 33, a2, 37⟩,
   ⟨37, 37, a2, 37⟩,
   ⟨39, 39, a2, 37⟩,
   ⟨42, 43, a2, 37⟩,
   ⟨45, 46, a2, 37⟩,
   ⟨48, 57, a2, 37⟩,
   ⟨65, 90, a2, 37⟩,
   ⟨95, 122, a2, 37⟩,
   ⟨126, 126, a2, 37⟩]

/-- `sip/msg_parse.go:2624` (`st_case_37`). -/
def s37 : List Row :=
  [⟨9, 9, a13, 38⟩,
   ⟨32, 32, a13, 38⟩,
   ⟨33, 33, a2, 37⟩,
   ⟨37, 37, a2, 37⟩,
   ⟨39, 39, a2, 37⟩,
   ⟨42, 43, a2, 37⟩,
   ⟨45, 46, a2, 37⟩,
   ⟨48, 57, a2, 37⟩,
   ⟨59, 59, a13, 39⟩,
   ⟨65, 90, a2, 37⟩,
   ⟨95, 122, a2, 37⟩,
   ⟨126, 126, a2, 37⟩,
   ⟨269, 269, a13, 44⟩,
   ⟨525, 525, a13, 45⟩]

/-- `sip/msg_parse.go:2685` (`st_case_38`). -/
def s38 : List Row :=
  [⟨9, 9, a2, 38⟩,
   ⟨32, 32, a2, 38⟩,
   ⟨59, 59, a2, 39⟩,
   ⟨525, 525, a2, 45⟩]

/-- `sip/msg_parse.go:2715` (`st_case_39`). -/
def s39 : List Row :=
  [⟨9, 9, a2, 39⟩,
   ⟨32, 32, a2, 39⟩,
   ⟨33, 33, a2, 40⟩,
   ⟨37, 37, a2, 40⟩,
   ⟨39, 39, a2, 40⟩,
   ⟨42, 43, a2, 40⟩,
   ⟨45, 46, a2, 40⟩,
   ⟨48, 57, a2, 40⟩,
   ⟨65, 90, a2, 40⟩,
   ⟨95, 122, a2, 40⟩,
   ⟨126, 126, a2, 40⟩,
   ⟨525, 525, a2, 65⟩]

/-- `sip/msg_parse.go:2767` (`st_case_40`). -/
def s40 : List Row :=
  [⟨9, 9, a2, 41⟩,
   ⟨32, 32, a2, 41⟩,
   ⟨33, 33, a2, 40⟩,
   ⟨37, 37, a2, 40⟩,
   ⟨39, 39, a2, 40⟩,
   ⟨42, 43, a2, 40⟩,
   ⟨45, 46, a2, 40⟩,
   ⟨48, 57, a2, 40⟩,
   ⟨61, 61, a2, 42⟩,
   ⟨65, 90, a2, 40⟩,
   ⟨95, 122, a2, 40⟩,
   ⟨126, 126, a2, 40⟩,
   ⟨525, 525, a2, 62⟩]

/-- `sip/msg_parse.go:2820` (`st_case_41`). -/
def s41 : List Row :=
  [⟨9, 9, a2, 41⟩,
   ⟨32, 32, a2, 41⟩,
   ⟨61, 61, a2, 42⟩,
   ⟨525, 525, a2, 62⟩]

/-- `sip/msg_parse.go:2843` (`st_case_42`). -/
def s42 : List Row :=
  [⟨9, 9, a2, 42⟩,
   ⟨32, 32, a2, 42⟩,
   ⟨33, 33, a2, 43⟩,
   ⟨34, 34, a2, 48⟩,
   ⟨37, 37, a2, 43⟩,
   ⟨39, 39, a2, 43⟩,
   ⟨42, 43, a2, 43⟩,
   ⟨45, 46, a2, 43⟩,
   ⟨48, 57, a2, 43⟩,
   ⟨65, 90, a2, 43⟩,
   ⟨95, 122, a2, 43⟩,
   ⟨126, 126, a2, 43⟩,
   ⟨525, 525, a2, 59⟩]

/-- `sip/msg_parse.go:2896` (`st_case_43`). -/
def s43 : List Row :=
  [⟨9, 9, a2, 38⟩,
   ⟨32, 32, a2, 38⟩,
   ⟨33, 33, a2, 43⟩,
   ⟨37, 37, a2, 43⟩,
   ⟨39, 39, a2, 43⟩,
   ⟨42, 43, a2, 43⟩,
   ⟨45, 46, a2, 43⟩,
   ⟨48, 57, a2, 43⟩,
   ⟨59, 59, a2, 39⟩,
   ⟨65, 90, a2, 43⟩,
   ⟨95, 122, a2, 43⟩,
   ⟨126, 126, a2, 43⟩,
   ⟨269, 269, a2, 44⟩,
   ⟨525, 525, a2, 45⟩]

/-- `sip/msg_parse.go:2957` (`st_case_44`). -/
def s44 : List Row :=
  [⟨10, 10, a2, 280⟩]

/-- `sip/msg_parse.go:2984` (`st_case_45`). -/
def s45 : List Row :=
  [⟨10, 10, a2, 46⟩]

/-- `sip/msg_parse.go:2994` (`st_case_46`). -/
def s46 : List Row :=
  [⟨9, 9, a2, 47⟩,
   ⟨32, 32, a2, 47⟩]

/-- `sip/msg_parse.go:3006` (`st_case_47`). -/
def s47 : List Row :=
  [⟨9, 9, a2, 47⟩,
   ⟨32, 32, a2, 47⟩,
   ⟨59, 59, a2, 39⟩]

/-- `sip/msg_parse.go:3020` (`st_case_48`). -/
def s48 : List Row :=
  [⟨9, 9, a7, 49⟩,
   ⟨32, 33, a7, 49⟩,
   ⟨34, 34, a8, 50⟩,
   ⟨35, 91, a7, 49⟩,
   ⟨92, 92, a8, 51⟩,
   ⟨93, 126, a7, 49⟩,
   ⟨192, 223, a7, 52⟩,
   ⟨224, 239, a7, 53⟩,
   ⟨240, 247, a7, 54⟩,
   ⟨248, 251, a7, 55⟩,
   ⟨252, 253, a7, 56⟩,
   ⟨525, 525, a7, 57⟩]

/-- `sip/msg_parse.go:3087` (`st_case_49`). -/
def s49 : List Row :=
  [⟨9, 9, a9, 49⟩,
   ⟨32, 33, a9, 49⟩,
   ⟨34, 34, a2, 50⟩,
   ⟨35, 91, a9, 49⟩,
   ⟨92, 92, a2, 51⟩,
   ⟨93, 126, a9, 49⟩,
   ⟨192, 223, a9, 52⟩,
   ⟨224, 239, a9, 53⟩,
   ⟨240, 247, a9, 54⟩,
   ⟨248, 251, a9, 55⟩,
   ⟨252, 253, a9, 56⟩,
   ⟨525, 525, a9, 57⟩]

/-- `sip/msg_parse.go:3143` (`st_case_50`). -/
def s50 : List Row :=
  [⟨9, 9, a2, 38⟩,
   ⟨32, 32, a2, 38⟩,
   ⟨59, 59, a2, 39⟩,
   ⟨269, 269, a2, 44⟩,
   ⟨525, 525, a2, 45⟩]

/-- `sip/msg_parse.go:3175` (`st_case_51`). -/
def s51 : List Row :=
  [⟨0, 9, a9, 49⟩,
   ⟨11, 12, a9, 49⟩,
   ⟨14, 127, a9, 49⟩]

/-- `sip/msg_parse.go:3212` (`st_case_52`). -/
def s52 : List Row :=
  [⟨128, 191, a9, 49⟩]

/-- `sip/msg_parse.go:3240` (`st_case_53`). -/
def s53 : List Row :=
  [⟨128, 191, a9, 52⟩]

/-- `sip/msg_parse.go:3268` (`st_case_54`). -/
def s54 : List Row :=
  [⟨128, 191, a9, 53⟩]

/-- `sip/msg_parse.go:3296` (`st_case_55`). -/
def s55 : List Row :=
  [⟨128, 191, a9, 54⟩]

/-- `sip/msg_parse.go:3324` (`st_case_56`). -/
def s56 : List Row :=
  [⟨128, 191, a9, 55⟩]

/-- `sip/msg_parse.go:3352` (`st_case_57`). -/
def s57 : List Row :=
  [⟨10, 10, a9, 58⟩]

/-- `sip/msg_parse.go:3369` (`st_case_58`). -/
def s58 : List Row :=
  [⟨9, 9, a9, 49⟩,
   ⟨32, 32, a9, 49⟩]

/-- `sip/msg_parse.go:3382` (`st_case_59`). -/
def s59 : List Row :=
  [⟨10, 10, a2, 60⟩]

/-- `sip/msg_parse.go:3391` (`st_case_60`). -/
def s60 : List Row :=
  [⟨9, 9, a2, 61⟩,
   ⟨32, 32, a2, 61⟩]

/-- `sip/msg_parse.go:3403` (`st_case_61`). -/
def s61 : List Row :=
  [⟨9, 9, a2, 61⟩,
   ⟨32, 32, a2, 61⟩,
   ⟨33, 33, a2, 43⟩,
   ⟨34, 34, a2, 48⟩,
   ⟨37, 37, a2, 43⟩,
   ⟨39, 39, a2, 43⟩,
   ⟨42, 43, a2, 43⟩,
   ⟨45, 46, a2, 43⟩,
   ⟨48, 57, a2, 43⟩,
   ⟨65, 90, a2, 43⟩,
   ⟨95, 122, a2, 43⟩,
   ⟨126, 126, a2, 43⟩]

/-- `sip/msg_parse.go:3447` (`st_case_62`). -/
def s62 : List Row :=
  [⟨10, 10, a2, 63⟩]

/-- `sip/msg_parse.go:3456` (`st_case_63`). -/
def s63 : List Row :=
  [⟨9, 9, a2, 64⟩,
   ⟨32, 32, a2, 64⟩]

/-- `sip/msg_parse.go:3468` (`st_case_64`). -/
def s64 : List Row :=
  [⟨9, 9, a2, 64⟩,
   ⟨32, 32, a2, 64⟩,
   ⟨61, 61, a2, 42⟩]

/-- `sip/msg_parse.go:3482` (`st_case_65`). -/
def s65 : List Row :=
  [⟨10, 10, a2, 66⟩]

/-- `sip/msg_parse.go:3491` (`st_case_66`). -/
def s66 : List Row :=
  [⟨9, 9, a2, 67⟩,
   ⟨32, 32, a2, 67⟩]

/-- `sip/msg_parse.go:3503` (`st_case_67`). -/
def s67 : List Row :=
  [⟨9, 9, a2, 67⟩,
   ⟨32, 32, a2, 67⟩,
   ⟨33, 33, a2, 40⟩,
   ⟨37, 37, a2, 40⟩,
   ⟨39, 39, a2, 40⟩,
   ⟨42, 43, a2, 40⟩,
   ⟨45, 46, a2, 40⟩,
   ⟨48, 57, a2, 40⟩,
   ⟨65, 90, a2, 40⟩,
   ⟨95, 122, a2, 40⟩,
   ⟨126, 126, a2, 40⟩]

/-- `sip/msg_parse.go:3545` (`st_case_68`). -/
def s68 : List Row :=
  [⟨33, 33, a14, 69⟩,
   ⟨37, 37, a14, 69⟩,
   ⟨39, 39, a14, 69⟩,
   ⟨42, 43, a14, 69⟩,
   ⟨45, 46, a14, 69⟩,
   ⟨48, 57, a14, 69⟩,
   ⟨65, 90, a14, 69⟩,
   ⟨95, 122, a14, 69⟩,
   ⟨126, 126, a14, 69⟩]

/-- `sip/msg_parse.go:3593` (`st_case_69`). -/
def s69 : List Row :=
  [⟨9, 9, a15, 70⟩,
   ⟨32, 32, a15, 70⟩,
   ⟨33, 33, a2, 69⟩,
   ⟨37, 37, a2, 69⟩,
   ⟨39, 39, a2, 69⟩,
   ⟨42, 43, a2, 69⟩,
   ⟨44, 44, a15, 71⟩,
   ⟨45, 46, a2, 69⟩,
   ⟨48, 57, a2, 69⟩,
   ⟨59, 59, a15, 75⟩,
   ⟨61, 61, a15, 79⟩,
   ⟨65, 90, a2, 69⟩,
   ⟨95, 122, a2, 69⟩,
   ⟨126, 126, a2, 69⟩,
   ⟨269, 269, a15, 85⟩,
   ⟨525, 525, a15, 100⟩]

/-- `sip/msg_parse.go:3654` (`st_case_70`). -/
def s70 : List Row :=
  [⟨9, 9, a2, 70⟩,
   ⟨32, 32, a2, 70⟩,
   ⟨44, 44, a2, 71⟩,
   ⟨59, 59, a2, 75⟩,
   ⟨61, 61, a2, 79⟩,
   ⟨525, 525, a2, 100⟩]

/-- `sip/msg_parse.go:3688` (`st_case_71`). -/
def s71 : List Row :=
  [⟨0, 8, a16, 103⟩,
   ⟨9, 9, a2, 71⟩,
   ⟨10, 12, a16, 103⟩,
   ⟨14, 31, a16, 103⟩,
   ⟨32, 32, a2, 71⟩,
   ⟨33, 255, a16, 103⟩,
   ⟨269, 269, a16, 103⟩,
   ⟨525, 525, a2, 72⟩]

/-- `sip/msg_parse.go:3781` (`st_case_72`). -/
def s72 : List Row :=
  [⟨10, 10, a2, 73⟩]

/-- `sip/msg_parse.go:3790` (`st_case_73`). -/
def s73 : List Row :=
  [⟨9, 9, a2, 74⟩,
   ⟨32, 32, a2, 74⟩]

/-- `sip/msg_parse.go:3802` (`st_case_74`). -/
def s74 : List Row :=
  [⟨0, 8, a16, 103⟩,
   ⟨9, 9, a2, 74⟩,
   ⟨10, 31, a16, 103⟩,
   ⟨32, 32, a2, 74⟩,
   ⟨33, 255, a16, 103⟩]

/-- `sip/msg_parse.go:3820` (`st_case_75`). -/
def s75 : List Row :=
  [⟨0, 8, a17, 68⟩,
   ⟨9, 9, a2, 75⟩,
   ⟨10, 12, a17, 68⟩,
   ⟨14, 31, a17, 68⟩,
   ⟨32, 32, a2, 75⟩,
   ⟨33, 255, a17, 68⟩,
   ⟨269, 269, a17, 68⟩,
   ⟨525, 525, a2, 76⟩]

/-- `sip/msg_parse.go:3852` (`st_case_76`). -/
def s76 : List Row :=
  [⟨10, 10, a2, 77⟩]

/-- `sip/msg_parse.go:3861` (`st_case_77`). -/
def s77 : List Row :=
  [⟨9, 9, a2, 78⟩,
   ⟨32, 32, a2, 78⟩]

/-- `sip/msg_parse.go:3873` (`st_case_78`). -/
def s78 : List Row :=
  [⟨0, 8, a17, 68⟩,
   ⟨9, 9, a2, 78⟩,
   ⟨10, 31, a17, 68⟩,
   ⟨32, 32, a2, 78⟩,
   ⟨33, 255, a17, 68⟩]

/-- `sip/msg_parse.go:3891` (`st_case_79`). -/
def s79 : List Row :=
  [⟨9, 9, a2, 79⟩,
   ⟨32, 32, a2, 79⟩,
   ⟨33, 33, a9, 80⟩,
   ⟨34, 34, a2, 86⟩,
   ⟨37, 37, a9, 80⟩,
   ⟨39, 39, a9, 80⟩,
   ⟨42, 43, a9, 80⟩,
   ⟨45, 46, a9, 80⟩,
   ⟨48, 58, a9, 80⟩,
   ⟨65, 91, a9, 80⟩,
   ⟨93, 93, a9, 80⟩,
   ⟨95, 122, a9, 80⟩,
   ⟨126, 126, a9, 80⟩,
   ⟨525, 525, a2, 97⟩]

/-- `sip/msg_parse.go:3954` (`st_case_80`). -/
def s80 : List Row :=
  [⟨9, 9, a2, 81⟩,
   ⟨32, 32, a2, 81⟩,
   ⟨33, 33, a9, 80⟩,
   ⟨37, 37, a9, 80⟩,
   ⟨39, 39, a9, 80⟩,
   ⟨42, 43, a9, 80⟩,
   ⟨44, 44, a2, 71⟩,
   ⟨45, 46, a9, 80⟩,
   ⟨48, 58, a9, 80⟩,
   ⟨59, 59, a2, 75⟩,
   ⟨65, 91, a9, 80⟩,
   ⟨93, 93, a9, 80⟩,
   ⟨95, 122, a9, 80⟩,
   ⟨126, 126, a9, 80⟩,
   ⟨269, 269, a2, 85⟩,
   ⟨525, 525, a2, 82⟩]

/-- `sip/msg_parse.go:4009` (`st_case_81`). -/
def s81 : List Row :=
  [⟨9, 9, a2, 81⟩,
   ⟨32, 32, a2, 81⟩,
   ⟨44, 44, a2, 71⟩,
   ⟨59, 59, a2, 75⟩,
   ⟨525, 525, a2, 82⟩]

/-- `sip/msg_parse.go:4034` (`st_case_82`). -/
def s82 : List Row :=
  [⟨10, 10, a2, 83⟩]

/-- `sip/msg_parse.go:4043` (`st_case_83`). -/
def s83 : List Row :=
  [⟨9, 9, a2, 84⟩,
   ⟨32, 32, a2, 84⟩]

/-- `sip/msg_parse.go:4055` (`st_case_84`). -/
def s84 : List Row :=
  [⟨9, 9, a2, 84⟩,
   ⟨32, 32, a2, 84⟩,
   ⟨44, 44, a2, 71⟩,
   ⟨59, 59, a2, 75⟩]

/-- `sip/msg_parse.go:4077` (`st_case_85`). -/
def s85 : List Row :=
  [⟨10, 10, a18, 280⟩]

/-- `sip/msg_parse.go:4087` (`st_case_86`). -/
def s86 : List Row :=
  [⟨9, 9, a7, 87⟩,
   ⟨32, 33, a7, 87⟩,
   ⟨34, 34, a8, 88⟩,
   ⟨35, 91, a7, 87⟩,
   ⟨92, 92, a8, 89⟩,
   ⟨93, 126, a7, 87⟩,
   ⟨192, 223, a7, 90⟩,
   ⟨224, 239, a7, 91⟩,
   ⟨240, 247, a7, 92⟩,
   ⟨248, 251, a7, 93⟩,
   ⟨252, 253, a7, 94⟩,
   ⟨525, 525, a7, 95⟩]

/-- `sip/msg_parse.go:4154` (`st_case_87`). -/
def s87 : List Row :=
  [⟨9, 9, a9, 87⟩,
   ⟨32, 33, a9, 87⟩,
   ⟨34, 34, a2, 88⟩,
   ⟨35, 91, a9, 87⟩,
   ⟨92, 92, a2, 89⟩,
   ⟨93, 126, a9, 87⟩,
   ⟨192, 223, a9, 90⟩,
   ⟨224, 239, a9, 91⟩,
   ⟨240, 247, a9, 92⟩,
   ⟨248, 251, a9, 93⟩,
   ⟨252, 253, a9, 94⟩,
   ⟨525, 525, a9, 95⟩]

/-- `sip/msg_parse.go:4210` (`st_case_88`). -/
def s88 : List Row :=
  [⟨9, 9, a2, 81⟩,
   ⟨32, 32, a2, 81⟩,
   ⟨44, 44, a2, 71⟩,
   ⟨59, 59, a2, 75⟩,
   ⟨269, 269, a2, 85⟩,
   ⟨525, 525, a2, 82⟩]

/-- `sip/msg_parse.go:4244` (`st_case_89`). -/
def s89 : List Row :=
  [⟨0, 9, a9, 87⟩,
   ⟨11, 12, a9, 87⟩,
   ⟨14, 127, a9, 87⟩]

/-- `sip/msg_parse.go:4281` (`st_case_90`). -/
def s90 : List Row :=
  [⟨128, 191, a9, 87⟩]

/-- `sip/msg_parse.go:4309` (`st_case_91`). -/
def s91 : List Row :=
  [⟨128, 191, a9, 90⟩]

/-- `sip/msg_parse.go:4337` (`st_case_92`). -/
def s92 : List Row :=
  [⟨128, 191, a9, 91⟩]

/-- `sip/msg_parse.go:4365` (`st_case_93`). -/
def s93 : List Row :=
  [⟨128, 191, a9, 92⟩]

/-- `sip/msg_parse.go:4393` (`st_case_94`). -/
def s94 : List Row :=
  [⟨128, 191, a9, 93⟩]

/-- `sip/msg_parse.go:4421` (`st_case_95`). -/
def s95 : List Row :=
  [⟨10, 10, a9, 96⟩]

/-- `sip/msg_parse.go:4438` (`st_case_96`). -/
def s96 : List Row :=
  [⟨9, 9, a9, 87⟩,
   ⟨32, 32, a9, 87⟩]

/-- `sip/msg_parse.go:4451` (`st_case_97`). -/
def s97 : List Row :=
  [⟨10, 10, a2, 98⟩]

/-- `sip/msg_parse.go:4460` (`st_case_98`). -/
def s98 : List Row :=
  [⟨9, 9, a2, 99⟩,
   ⟨32, 32, a2, 99⟩]

/-- `sip/msg_parse.go:4472` (`st_case_99`). -/
def s99 : List Row :=
  [⟨9, 9, a2, 99⟩,
   ⟨32, 32, a2, 99⟩,
   ⟨33, 33, a9, 80⟩,
   ⟨34, 34, a2, 86⟩,
   ⟨37, 37, a9, 80⟩,
   ⟨39, 39, a9, 80⟩,
   ⟨42, 43, a9, 80⟩,
   ⟨45, 46, a9, 80⟩,
   ⟨48, 58, a9, 80⟩,
   ⟨65, 91, a9, 80⟩,
   ⟨93, 93, a9, 80⟩,
   ⟨95, 122, a9, 80⟩,
   ⟨126, 126, a9, 80⟩]

/-- `sip/msg_parse.go:4524` (`st_case_100`). -/
def s100 : List Row :=
  [⟨10, 10, a2, 101⟩]

/-- `sip/msg_parse.go:4534` (`st_case_101`). -/
def s101 : List Row :=
  [⟨9, 9, a2, 102⟩,
   ⟨32, 32, a2, 102⟩]

/-- `sip/msg_parse.go:4546` (`st_case_102`). -/
def s102 : List Row :=
  [⟨9, 9, a2, 102⟩,
   ⟨32, 32, a2, 102⟩,
   ⟨44, 44, a2, 71⟩,
   ⟨59, 59, a2, 75⟩,
   ⟨61, 61, a2, 79⟩]

/-- `sip/msg_parse.go:4564` (`st_case_103`). -/
def s103 : List Row :=
  [⟨33, 33, a0, 104⟩,
   ⟨37, 37, a0, 104⟩,
   ⟨39, 39, a0, 104⟩,
   ⟨42, 43, a0, 104⟩,
   ⟨45, 46, a0, 104⟩,
   ⟨48, 57, a0, 104⟩,
   ⟨65, 90, a0, 104⟩,
   ⟨95, 122, a0, 104⟩,
   ⟨126, 126, a0, 104⟩]

/-- `sip/msg_parse.go:4608` (`st_case_104`). -/
def s104 : List Row :=
  [⟨9, 9, a19, 105⟩,
   ⟨32, 32, a19, 105⟩,
   ⟨33, 33, a2, 104⟩,
   ⟨37, 37, a2, 104⟩,
   ⟨39, 39, a2, 104⟩,
   ⟨42, 43, a2, 104⟩,
   ⟨45, 46, a2, 104⟩,
   ⟨47, 47, a19, 106⟩,
   ⟨48, 57, a2, 104⟩,
   ⟨65, 90, a2, 104⟩,
   ⟨95, 122, a2, 104⟩,
   ⟨126, 126, a2, 104⟩,
   ⟨525, 525, a19, 150⟩]

/-- `sip/msg_parse.go:4663` (`st_case_105`). -/
def s105 : List Row :=
  [⟨9, 9, a2, 105⟩,
   ⟨32, 32, a2, 105⟩,
   ⟨47, 47, a2, 106⟩,
   ⟨525, 525, a2, 150⟩]

/-- `sip/msg_parse.go:4693` (`st_case_106`). -/
def s106 : List Row :=
  [⟨9, 9, a2, 106⟩,
   ⟨32, 32, a2, 106⟩,
   ⟨33, 33, a0, 107⟩,
   ⟨37, 37, a0, 107⟩,
   ⟨39, 39, a0, 107⟩,
   ⟨42, 43, a0, 107⟩,
   ⟨45, 46, a0, 107⟩,
   ⟨48, 57, a0, 107⟩,
   ⟨65, 90, a0, 107⟩,
   ⟨95, 122, a0, 107⟩,
   ⟨126, 126, a0, 107⟩,
   ⟨525, 525, a2, 147⟩]

/-- `sip/msg_parse.go:4751` (`st_case_107`). -/
def s107 : List Row :=
  [⟨9, 9, a20, 108⟩,
   ⟨32, 32, a20, 108⟩,
   ⟨33, 33, a2, 107⟩,
   ⟨37, 37, a2, 107⟩,
   ⟨39, 39, a2, 107⟩,
   ⟨42, 43, a2, 107⟩,
   ⟨45, 46, a2, 107⟩,
   ⟨47, 47, a20, 109⟩,
   ⟨48, 57, a2, 107⟩,
   ⟨65, 90, a2, 107⟩,
   ⟨95, 122, a2, 107⟩,
   ⟨126, 126, a2, 107⟩,
   ⟨525, 525, a20, 144⟩]

/-- `sip/msg_parse.go:4806` (`st_case_108`). -/
def s108 : List Row :=
  [⟨9, 9, a2, 108⟩,
   ⟨32, 32, a2, 108⟩,
   ⟨47, 47, a2, 109⟩,
   ⟨525, 525, a2, 144⟩]

/-- `sip/msg_parse.go:4836` (`st_case_109`). -/
def s109 : List Row :=
  [⟨9, 9, a2, 109⟩,
   ⟨32, 32, a2, 109⟩,
   ⟨33, 33, a0, 110⟩,
   ⟨37, 37, a0, 110⟩,
   ⟨39, 39, a0, 110⟩,
   ⟨42, 43, a0, 110⟩,
   ⟨45, 46, a0, 110⟩,
   ⟨48, 57, a0, 110⟩,
   ⟨65, 90, a0, 110⟩,
   ⟨95, 122, a0, 110⟩,
   ⟨126, 126, a0, 110⟩,
   ⟨525, 525, a2, 141⟩]

/-- `sip/msg_parse.go:4894` (`st_case_110`). -/
def s110 : List Row :=
  [⟨9, 9, a21, 111⟩,
   ⟨32, 32, a21, 111⟩,
   ⟨33, 33, a2, 110⟩,
   ⟨37, 37, a2, 110⟩,
   ⟨39, 39, a2, 110⟩,
   ⟨42, 43, a2, 110⟩,
   ⟨45, 46, a2, 110⟩,
   ⟨48, 57, a2, 110⟩,
   ⟨65, 90, a2, 110⟩,
   ⟨95, 122, a2, 110⟩,
   ⟨126, 126, a2, 110⟩,
   ⟨525, 525, a21, 138⟩]

/-- `sip/msg_parse.go:4952` (`st_case_111`). -/
def s111 : List Row :=
  [⟨9, 9, a2, 111⟩,
   ⟨32, 32, a2, 111⟩,
   ⟨45, 46, a0, 112⟩,
   ⟨48, 57, a0, 112⟩,
   ⟨65, 90, a0, 112⟩,
   ⟨91, 91, a2, 135⟩,
   ⟨97, 122, a0, 112⟩,
   ⟨525, 525, a2, 138⟩]

/-- `sip/msg_parse.go:4999` (`st_case_112`). -/
def s112 : List Row :=
  [⟨9, 9, a22, 113⟩,
   ⟨32, 32, a22, 113⟩,
   ⟨44, 44, a22, 114⟩,
   ⟨45, 46, a2, 112⟩,
   ⟨48, 57, a2, 112⟩,
   ⟨58, 58, a22, 118⟩,
   ⟨59, 59, a22, 121⟩,
   ⟨65, 90, a2, 112⟩,
   ⟨97, 122, a2, 112⟩,
   ⟨269, 269, a22, 128⟩,
   ⟨525, 525, a22, 132⟩]

/-- `sip/msg_parse.go:5052` (`st_case_113`). -/
def s113 : List Row :=
  [⟨9, 9, a2, 113⟩,
   ⟨32, 32, a2, 113⟩,
   ⟨44, 44, a2, 114⟩,
   ⟨58, 58, a2, 118⟩,
   ⟨59, 59, a2, 121⟩,
   ⟨525, 525, a2, 132⟩]

/-- `sip/msg_parse.go:5086` (`st_case_114`). -/
def s114 : List Row :=
  [⟨0, 8, a23, 103⟩,
   ⟨9, 9, a2, 114⟩,
   ⟨10, 12, a23, 103⟩,
   ⟨14, 31, a23, 103⟩,
   ⟨32, 32, a2, 114⟩,
   ⟨33, 255, a23, 103⟩,
   ⟨269, 269, a23, 103⟩,
   ⟨525, 525, a2, 115⟩]

/-- `sip/msg_parse.go:5167` (`st_case_115`). -/
def s115 : List Row :=
  [⟨10, 10, a2, 116⟩]

/-- `sip/msg_parse.go:5176` (`st_case_116`). -/
def s116 : List Row :=
  [⟨9, 9, a2, 117⟩,
   ⟨32, 32, a2, 117⟩]

/-- `sip/msg_parse.go:5188` (`st_case_117`). -/
def s117 : List Row :=
  [⟨0, 8, a23, 103⟩,
   ⟨9, 9, a2, 117⟩,
   ⟨10, 31, a23, 103⟩,
   ⟨32, 32, a2, 117⟩,
   ⟨33, 255, a23, 103⟩]

/-- `sip/msg_parse.go:5206` (`st_case_118`). -/
def s118 : List Row :=
  [⟨9, 9, a2, 118⟩,
   ⟨32, 32, a2, 118⟩,
   ⟨48, 57, a24, 119⟩,
   ⟨525, 525, a2, 129⟩]

/-- `sip/msg_parse.go:5237` (`st_case_119`). -/
def s119 : List Row :=
  [⟨9, 9, a2, 120⟩,
   ⟨32, 32, a2, 120⟩,
   ⟨44, 44, a2, 114⟩,
   ⟨48, 57, a24, 119⟩,
   ⟨59, 59, a2, 121⟩,
   ⟨269, 269, a2, 128⟩,
   ⟨525, 525, a2, 125⟩]

/-- `sip/msg_parse.go:5268` (`st_case_120`). -/
def s120 : List Row :=
  [⟨9, 9, a2, 120⟩,
   ⟨32, 32, a2, 120⟩,
   ⟨44, 44, a2, 114⟩,
   ⟨59, 59, a2, 121⟩,
   ⟨525, 525, a2, 125⟩]

/-- `sip/msg_parse.go:5299` (`st_case_121`). -/
def s121 : List Row :=
  [⟨0, 8, a25, 68⟩,
   ⟨9, 9, a2, 121⟩,
   ⟨10, 12, a25, 68⟩,
   ⟨14, 31, a25, 68⟩,
   ⟨32, 32, a2, 121⟩,
   ⟨33, 255, a25, 68⟩,
   ⟨269, 269, a25, 68⟩,
   ⟨525, 525, a2, 122⟩]

/-- `sip/msg_parse.go:5331` (`st_case_122`). -/
def s122 : List Row :=
  [⟨10, 10, a2, 123⟩]

/-- `sip/msg_parse.go:5340` (`st_case_123`). -/
def s123 : List Row :=
  [⟨9, 9, a2, 124⟩,
   ⟨32, 32, a2, 124⟩]

/-- `sip/msg_parse.go:5352` (`st_case_124`). -/
def s124 : List Row :=
  [⟨0, 8, a25, 68⟩,
   ⟨9, 9, a2, 124⟩,
   ⟨10, 31, a25, 68⟩,
   ⟨32, 32, a2, 124⟩,
   ⟨33, 255, a25, 68⟩]

/-- `sip/msg_parse.go:5364` (`st_case_125`). -/
def s125 : List Row :=
  [⟨10, 10, a2, 126⟩]

/-- `sip/msg_parse.go:5373` (`st_case_126`). -/
def s126 : List Row :=
  [⟨9, 9, a2, 127⟩,
   ⟨32, 32, a2, 127⟩]

/-- `sip/msg_parse.go:5385` (`st_case_127`). -/
def s127 : List Row :=
  [⟨9, 9, a2, 127⟩,
   ⟨32, 32, a2, 127⟩,
   ⟨44, 44, a2, 114⟩,
   ⟨59, 59, a2, 121⟩]

/-- `sip/msg_parse.go:5407` (`st_case_128`). -/
def s128 : List Row :=
  [⟨10, 10, a26, 280⟩]

/-- `sip/msg_parse.go:5417` (`st_case_129`). -/
def s129 : List Row :=
  [⟨10, 10, a2, 130⟩]

/-- `sip/msg_parse.go:5426` (`st_case_130`). -/
def s130 : List Row :=
  [⟨9, 9, a2, 131⟩,
   ⟨32, 32, a2, 131⟩]

/-- `sip/msg_parse.go:5438` (`st_case_131`). -/
def s131 : List Row :=
  [⟨9, 9, a2, 131⟩,
   ⟨32, 32, a2, 131⟩,
   ⟨48, 57, a24, 119⟩]

/-- `sip/msg_parse.go:5459` (`st_case_132`). -/
def s132 : List Row :=
  [⟨10, 10, a2, 133⟩]

/-- `sip/msg_parse.go:5469` (`st_case_133`). -/
def s133 : List Row :=
  [⟨9, 9, a2, 134⟩,
   ⟨32, 32, a2, 134⟩]

/-- `sip/msg_parse.go:5481` (`st_case_134`). -/
def s134 : List Row :=
  [⟨9, 9, a2, 134⟩,
   ⟨32, 32, a2, 134⟩,
   ⟨44, 44, a2, 114⟩,
   ⟨58, 58, a2, 118⟩,
   ⟨59, 59, a2, 121⟩]

/-- `sip/msg_parse.go:5499` (`st_case_135`). -/
def s135 : List Row :=
  [⟨46, 46, a0, 136⟩,
   ⟨48, 58, a0, 136⟩,
   ⟨65, 70, a0, 136⟩,
   ⟨97, 102, a0, 136⟩]

/-- `sip/msg_parse.go:5526` (`st_case_136`). -/
def s136 : List Row :=
  [⟨46, 46, a2, 136⟩,
   ⟨48, 58, a2, 136⟩,
   ⟨65, 70, a2, 136⟩,
   ⟨93, 93, a22, 137⟩,
   ⟨97, 102, a2, 136⟩]

/-- `sip/msg_parse.go:5557` (`st_case_137`). -/
def s137 : List Row :=
  [⟨9, 9, a2, 113⟩,
   ⟨32, 32, a2, 113⟩,
   ⟨44, 44, a2, 114⟩,
   ⟨58, 58, a2, 118⟩,
   ⟨59, 59, a2, 121⟩,
   ⟨269, 269, a2, 128⟩,
   ⟨525, 525, a2, 132⟩]

/-- `sip/msg_parse.go:5593` (`st_case_138`). -/
def s138 : List Row :=
  [⟨10, 10, a2, 139⟩]

/-- `sip/msg_parse.go:5603` (`st_case_139`). -/
def s139 : List Row :=
  [⟨9, 9, a2, 140⟩,
   ⟨32, 32, a2, 140⟩]

/-- `sip/msg_parse.go:5615` (`st_case_140`). -/
def s140 : List Row :=
  [⟨9, 9, a2, 140⟩,
   ⟨32, 32, a2, 140⟩,
   ⟨45, 46, a0, 112⟩,
   ⟨48, 57, a0, 112⟩,
   ⟨65, 90, a0, 112⟩,
   ⟨91, 91, a2, 135⟩,
   ⟨97, 122, a0, 112⟩]

/-- `sip/msg_parse.go:5646` (`st_case_141`). -/
def s141 : List Row :=
  [⟨10, 10, a2, 142⟩]

/-- `sip/msg_parse.go:5655` (`st_case_142`). -/
def s142 : List Row :=
  [⟨9, 9, a2, 143⟩,
   ⟨32, 32, a2, 143⟩]

/-- `sip/msg_parse.go:5667` (`st_case_143`). -/
def s143 : List Row :=
  [⟨9, 9, a2, 143⟩,
   ⟨32, 32, a2, 143⟩,
   ⟨33, 33, a0, 110⟩,
   ⟨37, 37, a0, 110⟩,
   ⟨39, 39, a0, 110⟩,
   ⟨42, 43, a0, 110⟩,
   ⟨45, 46, a0, 110⟩,
   ⟨48, 57, a0, 110⟩,
   ⟨65, 90, a0, 110⟩,
   ⟨95, 122, a0, 110⟩,
   ⟨126, 126, a0, 110⟩]

/-- `sip/msg_parse.go:5715` (`st_case_144`). -/
def s144 : List Row :=
  [⟨10, 10, a2, 145⟩]

/-- `sip/msg_parse.go:5725` (`st_case_145`). -/
def s145 : List Row :=
  [⟨9, 9, a2, 146⟩,
   ⟨32, 32, a2, 146⟩]

/-- `sip/msg_parse.go:5737` (`st_case_146`). -/
def s146 : List Row :=
  [⟨9, 9, a2, 146⟩,
   ⟨32, 32, a2, 146⟩,
   ⟨47, 47, a2, 109⟩]

/-- `sip/msg_parse.go:5751` (`st_case_147`). -/
def s147 : List Row :=
  [⟨10, 10, a2, 148⟩]

/-- `sip/msg_parse.go:5760` (`st_case_148`). -/
def s148 : List Row :=
  [⟨9, 9, a2, 149⟩,
   ⟨32, 32, a2, 149⟩]

/-- `sip/msg_parse.go:5772` (`st_case_149`). -/
def s149 : List Row :=
  [⟨9, 9, a2, 149⟩,
   ⟨32, 32, a2, 149⟩,
   ⟨33, 33, a0, 107⟩,
   ⟨37, 37, a0, 107⟩,
   ⟨39, 39, a0, 107⟩,
   ⟨42, 43, a0, 107⟩,
   ⟨45, 46, a0, 107⟩,
   ⟨48, 57, a0, 107⟩,
   ⟨65, 90, a0, 107⟩,
   ⟨95, 122, a0, 107⟩,
   ⟨126, 126, a0, 107⟩]

/-- `sip/msg_parse.go:5820` (`st_case_150`). -/
def s150 : List Row :=
  [⟨10, 10, a2, 151⟩]

/-- `sip/msg_parse.go:5830` (`st_case_151`). -/
def s151 : List Row :=
  [⟨9, 9, a2, 152⟩,
   ⟨32, 32, a2, 152⟩]

/-- `sip/msg_parse.go:5842` (`st_case_152`). -/
def s152 : List Row :=
  [⟨9, 9, a2, 152⟩,
   ⟨32, 32, a2, 152⟩,
   ⟨47, 47, a2, 106⟩]

/-- `sip/msg_parse.go:5856` (`st_case_153`). -/
def s153 : List Row :=
  [⟨33, 33, a14, 154⟩,
   ⟨37, 37, a14, 154⟩,
   ⟨39, 39, a14, 154⟩,
   ⟨42, 43, a14, 154⟩,
   ⟨45, 46, a14, 154⟩,
   ⟨48, 57, a14, 154⟩,
   ⟨65, 90, a14, 154⟩,
   ⟨95, 122, a14, 154⟩,
   ⟨126, 126, a14, 154⟩]

/-- `sip/msg_parse.go:5904` (`st_case_154`). -/
def s154 : List Row :=
  [⟨9, 9, a15, 155⟩,
   ⟨32, 32, a15, 155⟩,
   ⟨33, 33, a2, 154⟩,
   ⟨37, 37, a2, 154⟩,
   ⟨39, 39, a2, 154⟩,
   ⟨42, 43, a2, 154⟩,
   ⟨44, 44, a15, 156⟩,
   ⟨45, 46, a2, 154⟩,
   ⟨48, 57, a2, 154⟩,
   ⟨59, 59, a15, 160⟩,
   ⟨61, 61, a15, 164⟩,
   ⟨65, 90, a2, 154⟩,
   ⟨95, 122, a2, 154⟩,
   ⟨126, 126, a2, 154⟩,
   ⟨269, 269, a15, 170⟩,
   ⟨525, 525, a15, 185⟩]

/-- `sip/msg_parse.go:5965` (`st_case_155`). -/
def s155 : List Row :=
  [⟨9, 9, a2, 155⟩,
   ⟨32, 32, a2, 155⟩,
   ⟨44, 44, a2, 156⟩,
   ⟨59, 59, a2, 160⟩,
   ⟨61, 61, a2, 164⟩,
   ⟨525, 525, a2, 185⟩]

/-- `sip/msg_parse.go:5999` (`st_case_156`). -/
def s156 : List Row :=
  [⟨0, 8, a27, 256⟩,
   ⟨9, 9, a2, 156⟩,
   ⟨10, 12, a27, 256⟩,
   ⟨14, 31, a27, 256⟩,
   ⟨32, 32, a2, 156⟩,
   ⟨33, 255, a27, 256⟩,
   ⟨269, 269, a27, 256⟩,
   ⟨525, 525, a2, 157⟩]

/-- `sip/msg_parse.go:6084` (`st_case_157`). -/
def s157 : List Row :=
  [⟨10, 10, a2, 158⟩]

/-- `sip/msg_parse.go:6093` (`st_case_158`). -/
def s158 : List Row :=
  [⟨9, 9, a2, 159⟩,
   ⟨32, 32, a2, 159⟩]

/-- `sip/msg_parse.go:6105` (`st_case_159`). -/
def s159 : List Row :=
  [⟨0, 8, a27, 256⟩,
   ⟨9, 9, a2, 159⟩,
   ⟨10, 31, a27, 256⟩,
   ⟨32, 32, a2, 159⟩,
   ⟨33, 255, a27, 256⟩]

/-- `sip/msg_parse.go:6123` (`st_case_160`). -/
def s160 : List Row :=
  [⟨0, 8, a28, 153⟩,
   ⟨9, 9, a2, 160⟩,
   ⟨10, 12, a28, 153⟩,
   ⟨14, 31, a28, 153⟩,
   ⟨32, 32, a2, 160⟩,
   ⟨33, 255, a28, 153⟩,
   ⟨269, 269, a28, 153⟩,
   ⟨525, 525, a2, 161⟩]

/-- `sip/msg_parse.go:6155` (`st_case_161`). -/
def s161 : List Row :=
  [⟨10, 10, a2, 162⟩]

/-- `sip/msg_parse.go:6164` (`st_case_162`). -/
def s162 : List Row :=
  [⟨9, 9, a2, 163⟩,
   ⟨32, 32, a2, 163⟩]

/-- `sip/msg_parse.go:6176` (`st_case_163`). -/
def s163 : List Row :=
  [⟨0, 8, a28, 153⟩,
   ⟨9, 9, a2, 163⟩,
   ⟨10, 31, a28, 153⟩,
   ⟨32, 32, a2, 163⟩,
   ⟨33, 255, a28, 153⟩]

/-- `sip/msg_parse.go:6194` (`st_case_164`). -/
def s164 : List Row :=
  [⟨9, 9, a2, 164⟩,
   ⟨32, 32, a2, 164⟩,
   ⟨33, 33, a9, 165⟩,
   ⟨34, 34, a2, 171⟩,
   ⟨37, 37, a9, 165⟩,
   ⟨39, 39, a9, 165⟩,
   ⟨42, 43, a9, 165⟩,
   ⟨45, 46, a9, 165⟩,
   ⟨48, 58, a9, 165⟩,
   ⟨65, 91, a9, 165⟩,
   ⟨93, 93, a9, 165⟩,
   ⟨95, 122, a9, 165⟩,
   ⟨126, 126, a9, 165⟩,
   ⟨525, 525, a2, 182⟩]

/-- `sip/msg_parse.go:6257` (`st_case_165`). -/
def s165 : List Row :=
  [⟨9, 9, a2, 166⟩,
   ⟨32, 32, a2, 166⟩,
   ⟨33, 33, a9, 165⟩,
   ⟨37, 37, a9, 165⟩,
   ⟨39, 39, a9, 165⟩,
   ⟨42, 43, a9, 165⟩,
   ⟨44, 44, a2, 156⟩,
   ⟨45, 46, a9, 165⟩,
   ⟨48, 58, a9, 165⟩,
   ⟨59, 59, a2, 160⟩,
   ⟨65, 91, a9, 165⟩,
   ⟨93, 93, a9, 165⟩,
   ⟨95, 122, a9, 165⟩,
   ⟨126, 126, a9, 165⟩,
   ⟨269, 269, a2, 170⟩,
   ⟨525, 525, a2, 167⟩]

/-- `sip/msg_parse.go:6312` (`st_case_166`). -/
def s166 : List Row :=
  [⟨9, 9, a2, 166⟩,
   ⟨32, 32, a2, 166⟩,
   ⟨44, 44, a2, 156⟩,
   ⟨59, 59, a2, 160⟩,
   ⟨525, 525, a2, 167⟩]

/-- `sip/msg_parse.go:6337` (`st_case_167`). -/
def s167 : List Row :=
  [⟨10, 10, a2, 168⟩]

/-- `sip/msg_parse.go:6346` (`st_case_168`). -/
def s168 : List Row :=
  [⟨9, 9, a2, 169⟩,
   ⟨32, 32, a2, 169⟩]

/-- `sip/msg_parse.go:6358` (`st_case_169`). -/
def s169 : List Row :=
  [⟨9, 9, a2, 169⟩,
   ⟨32, 32, a2, 169⟩,
   ⟨44, 44, a2, 156⟩,
   ⟨59, 59, a2, 160⟩]

/-- `sip/msg_parse.go:6380` (`st_case_170`). -/
def s170 : List Row :=
  [⟨10, 10, a29, 280⟩]

/-- `sip/msg_parse.go:6390` (`st_case_171`). -/
def s171 : List Row :=
  [⟨9, 9, a7, 172⟩,
   ⟨32, 33, a7, 172⟩,
   ⟨34, 34, a8, 173⟩,
   ⟨35, 91, a7, 172⟩,
   ⟨92, 92, a8, 174⟩,
   ⟨93, 126, a7, 172⟩,
   ⟨192, 223, a7, 175⟩,
   ⟨224, 239, a7, 176⟩,
   ⟨240, 247, a7, 177⟩,
   ⟨248, 251, a7, 178⟩,
   ⟨252, 253, a7, 179⟩,
   ⟨525, 525, a7, 180⟩]

/-- `sip/msg_parse.go:6457` (`st_case_172`). -/
def s172 : List Row :=
  [⟨9, 9, a9, 172⟩,
   ⟨32, 33, a9, 172⟩,
   ⟨34, 34, a2, 173⟩,
   ⟨35, 91, a9, 172⟩,
   ⟨92, 92, a2, 174⟩,
   ⟨93, 126, a9, 172⟩,
   ⟨192, 223, a9, 175⟩,
   ⟨224, 239, a9, 176⟩,
   ⟨240, 247, a9, 177⟩,
   ⟨248, 251, a9, 178⟩,
   ⟨252, 253, a9, 179⟩,
   ⟨525, 525, a9, 180⟩]

/-- `sip/msg_parse.go:6513` (`st_case_173`). -/
def s173 : List Row :=
  [⟨9, 9, a2, 166⟩,
   ⟨32, 32, a2, 166⟩,
   ⟨44, 44, a2, 156⟩,
   ⟨59, 59, a2, 160⟩,
   ⟨269, 269, a2, 170⟩,
   ⟨525, 525, a2, 167⟩]

/-- `sip/msg_parse.go:6547` (`st_case_174`). -/
def s174 : List Row :=
  [⟨0, 9, a9, 172⟩,
   ⟨11, 12, a9, 172⟩,
   ⟨14, 127, a9, 172⟩]

/-- `sip/msg_parse.go:6584` (`st_case_175`). -/
def s175 : List Row :=
  [⟨128, 191, a9, 172⟩]

/-- `sip/msg_parse.go:6612` (`st_case_176`). -/
def s176 : List Row :=
  [⟨128, 191, a9, 175⟩]

/-- `sip/msg_parse.go:6640` (`st_case_177`). -/
def s177 : List Row :=
  [⟨128, 191, a9, 176⟩]

/-- `sip/msg_parse.go:6668` (`st_case_178`). -/
def s178 : List Row :=
  [⟨128, 191, a9, 177⟩]

/-- `sip/msg_parse.go:6696` (`st_case_179`). -/
def s179 : List Row :=
  [⟨128, 191, a9, 178⟩]

/-- `sip/msg_parse.go:6724` (`st_case_180`). -/
def s180 : List Row :=
  [⟨10, 10, a9, 181⟩]

/-- `sip/msg_parse.go:6741` (`st_case_181`). -/
def s181 : List Row :=
  [⟨9, 9, a9, 172⟩,
   ⟨32, 32, a9, 172⟩]

/-- `sip/msg_parse.go:6754` (`st_case_182`). -/
def s182 : List Row :=
  [⟨10, 10, a2, 183⟩]

/-- `sip/msg_parse.go:6763` (`st_case_183`). -/
def s183 : List Row :=
  [⟨9, 9, a2, 184⟩,
   ⟨32, 32, a2, 184⟩]

/-- `sip/msg_parse.go:6775` (`st_case_184`). -/
def s184 : List Row :=
  [⟨9, 9, a2, 184⟩,
   ⟨32, 32, a2, 184⟩,
   ⟨33, 33, a9, 165⟩,
   ⟨34, 34, a2, 171⟩,
   ⟨37, 37, a9, 165⟩,
   ⟨39, 39, a9, 165⟩,
   ⟨42, 43, a9, 165⟩,
   ⟨45, 46, a9, 165⟩,
   ⟨48, 58, a9, 165⟩,
   ⟨65, 91, a9, 165⟩,
   ⟨93, 93, a9, 165⟩,
   ⟨95, 122, a9, 165⟩,
   ⟨126, 126, a9, 165⟩]

/-- `sip/msg_parse.go:6827` (`st_case_185`). -/
def s185 : List Row :=
  [⟨10, 10, a2, 186⟩]

/-- `sip/msg_parse.go:6837` (`st_case_186`). -/
def s186 : List Row :=
  [⟨9, 9, a2, 187⟩,
   ⟨32, 32, a2, 187⟩]

/-- `sip/msg_parse.go:6849` (`st_case_187`). -/
def s187 : List Row :=
  [⟨9, 9, a2, 187⟩,
   ⟨32, 32, a2, 187⟩,
   ⟨44, 44, a2, 156⟩,
   ⟨59, 59, a2, 160⟩,
   ⟨61, 61, a2, 164⟩]

/-- `sip/msg_parse.go:6867` (`st_case_188`). -/
def s188 : List Row :=
  [⟨9, 9, a2, 189⟩,
   ⟨32, 32, a2, 189⟩,
   ⟨33, 33, a0, 213⟩,
   ⟨34, 34, a8, 218⟩,
   ⟨37, 37, a0, 213⟩,
   ⟨39, 39, a0, 213⟩,
   ⟨42, 43, a0, 213⟩,
   ⟨45, 46, a0, 213⟩,
   ⟨48, 57, a0, 213⟩,
   ⟨60, 60, a2, 190⟩,
   ⟨65, 90, a0, 213⟩,
   ⟨95, 122, a0, 213⟩,
   ⟨126, 126, a0, 213⟩,
   ⟨525, 525, a2, 210⟩]

/-- `sip/msg_parse.go:6928` (`st_case_189`). -/
def s189 : List Row :=
  [⟨9, 9, a2, 189⟩,
   ⟨32, 32, a2, 189⟩,
   ⟨60, 60, a2, 190⟩,
   ⟨525, 525, a2, 210⟩]

/-- `sip/msg_parse.go:6968` (`st_case_190`). -/
def s190 : List Row :=
  [⟨65, 90, a0, 191⟩,
   ⟨97, 122, a0, 191⟩]

/-- `sip/msg_parse.go:6989` (`st_case_191`). -/
def s191 : List Row :=
  [⟨43, 43, a2, 191⟩,
   ⟨45, 46, a2, 191⟩,
   ⟨48, 57, a2, 191⟩,
   ⟨58, 58, a2, 192⟩,
   ⟨65, 90, a2, 191⟩,
   ⟨97, 122, a2, 191⟩]

/-- `sip/msg_parse.go:7019` (`st_case_192`). -/
def s192 : List Row :=
  [⟨33, 33, a2, 193⟩,
   ⟨36, 59, a2, 193⟩,
   ⟨61, 61, a2, 193⟩,
   ⟨63, 91, a2, 193⟩,
   ⟨93, 93, a2, 193⟩,
   ⟨95, 95, a2, 193⟩,
   ⟨97, 122, a2, 193⟩,
   ⟨126, 126, a2, 193⟩]

/-- `sip/msg_parse.go:7049` (`st_case_193`). -/
def s193 : List Row :=
  [⟨33, 33, a2, 193⟩,
   ⟨36, 59, a2, 193⟩,
   ⟨61, 61, a2, 193⟩,
   ⟨62, 62, a30, 194⟩,
   ⟨63, 91, a2, 193⟩,
   ⟨93, 93, a2, 193⟩,
   ⟨95, 95, a2, 193⟩,
   ⟨97, 122, a2, 193⟩,
   ⟨126, 126, a2, 193⟩]

/-- `sip/msg_parse.go:7086` (`st_case_194`). -/
def s194 : List Row :=
  [⟨9, 9, a2, 194⟩,
   ⟨32, 32, a2, 194⟩,
   ⟨44, 44, a2, 195⟩,
   ⟨59, 59, a2, 199⟩,
   ⟨269, 269, a2, 203⟩,
   ⟨525, 525, a2, 204⟩]

/-- `sip/msg_parse.go:7114` (`st_case_195`). -/
def s195 : List Row :=
  [⟨0, 8, a31, 256⟩,
   ⟨9, 9, a2, 195⟩,
   ⟨10, 12, a31, 256⟩,
   ⟨14, 31, a31, 256⟩,
   ⟨32, 32, a2, 195⟩,
   ⟨33, 255, a31, 256⟩,
   ⟨269, 269, a31, 256⟩,
   ⟨525, 525, a2, 196⟩]

/-- `sip/msg_parse.go:7186` (`st_case_196`). -/
def s196 : List Row :=
  [⟨10, 10, a2, 197⟩]

/-- `sip/msg_parse.go:7195` (`st_case_197`). -/
def s197 : List Row :=
  [⟨9, 9, a2, 198⟩,
   ⟨32, 32, a2, 198⟩]

/-- `sip/msg_parse.go:7207` (`st_case_198`). -/
def s198 : List Row :=
  [⟨0, 8, a31, 256⟩,
   ⟨9, 9, a2, 198⟩,
   ⟨10, 31, a31, 256⟩,
   ⟨32, 32, a2, 198⟩,
   ⟨33, 255, a31, 256⟩]

/-- `sip/msg_parse.go:7219` (`st_case_199`). -/
def s199 : List Row :=
  [⟨0, 8, a32, 153⟩,
   ⟨9, 9, a2, 199⟩,
   ⟨10, 12, a32, 153⟩,
   ⟨14, 31, a32, 153⟩,
   ⟨32, 32, a2, 199⟩,
   ⟨33, 255, a32, 153⟩,
   ⟨269, 269, a32, 153⟩,
   ⟨525, 525, a2, 200⟩]

/-- `sip/msg_parse.go:7250` (`st_case_200`). -/
def s200 : List Row :=
  [⟨10, 10, a2, 201⟩]

/-- `sip/msg_parse.go:7259` (`st_case_201`). -/
def s201 : List Row :=
  [⟨9, 9, a2, 202⟩,
   ⟨32, 32, a2, 202⟩]

/-- `sip/msg_parse.go:7271` (`st_case_202`). -/
def s202 : List Row :=
  [⟨0, 8, a32, 153⟩,
   ⟨9, 9, a2, 202⟩,
   ⟨10, 31, a32, 153⟩,
   ⟨32, 32, a2, 202⟩,
   ⟨33, 255, a32, 153⟩]

/-- `sip/msg_parse.go:7283` (`st_case_203`). -/
def s203 : List Row :=
  [⟨10, 10, a33, 280⟩]

/-- `sip/msg_parse.go:7292` (`st_case_204`). -/
def s204 : List Row :=
  [⟨10, 10, a2, 205⟩]

/-- `sip/msg_parse.go:7301` (`st_case_205`). -/
def s205 : List Row :=
  [⟨9, 9, a2, 206⟩,
   ⟨32, 32, a2, 206⟩]

/-- `sip/msg_parse.go:7313` (`st_case_206`). -/
def s206 : List Row :=
  [⟨9, 9, a2, 206⟩,
   ⟨32, 32, a2, 206⟩,
   ⟨44, 44, a2, 195⟩,
   ⟨59, 59, a2, 199⟩,
   ⟨269, 269, a2, 203⟩,
   ⟨525, 525, a2, 207⟩]

/-- `sip/msg_parse.go:7340` (`st_case_207`). -/
def s207 : List Row :=
  [⟨10, 10, a2, 208⟩]

/-- `sip/msg_parse.go:7349` (`st_case_208`). -/
def s208 : List Row :=
  [⟨9, 9, a2, 209⟩,
   ⟨32, 32, a2, 209⟩]

/-- `sip/msg_parse.go:7361` (`st_case_209`). -/
def s209 : List Row :=
  [⟨9, 9, a2, 209⟩,
   ⟨32, 32, a2, 209⟩,
   ⟨44, 44, a2, 195⟩,
   ⟨59, 59, a2, 199⟩]

/-- `sip/msg_parse.go:7393` (`st_case_210`). -/
def s210 : List Row :=
  [⟨10, 10, a2, 211⟩]

/-- `sip/msg_parse.go:7403` (`st_case_211`). -/
def s211 : List Row :=
  [⟨9, 9, a2, 212⟩,
   ⟨32, 32, a2, 212⟩]

/-- `sip/msg_parse.go:7415` (`st_case_212`). -/
def s212 : List Row :=
  [⟨9, 9, a2, 212⟩,
   ⟨32, 32, a2, 212⟩,
   ⟨60, 60, a2, 190⟩]

/-- `sip/msg_parse.go:7435` (`st_case_213`). -/
def s213 : List Row :=
  [⟨9, 9, a2, 214⟩,
   ⟨32, 32, a2, 214⟩,
   ⟨33, 33, a2, 213⟩,
   ⟨37, 37, a2, 213⟩,
   ⟨39, 39, a2, 213⟩,
   ⟨42, 43, a2, 213⟩,
   ⟨45, 46, a2, 213⟩,
   ⟨48, 57, a2, 213⟩,
   ⟨65, 90, a2, 213⟩,
   ⟨95, 122, a2, 213⟩,
   ⟨126, 126, a2, 213⟩,
   ⟨525, 525, a2, 215⟩]

/-- `sip/msg_parse.go:7497` (`st_case_214`). -/
def s214 : List Row :=
  [⟨9, 9, a34, 214⟩,
   ⟨32, 32, a34, 214⟩,
   ⟨33, 33, a2, 213⟩,
   ⟨37, 37, a2, 213⟩,
   ⟨39, 39, a2, 213⟩,
   ⟨42, 43, a2, 213⟩,
   ⟨45, 46, a2, 213⟩,
   ⟨48, 57, a2, 213⟩,
   ⟨60, 60, a34, 190⟩,
   ⟨65, 90, a2, 213⟩,
   ⟨95, 122, a2, 213⟩,
   ⟨126, 126, a2, 213⟩,
   ⟨525, 525, a34, 215⟩]

/-- `sip/msg_parse.go:7561` (`st_case_215`). -/
def s215 : List Row :=
  [⟨10, 10, a2, 216⟩]

/-- `sip/msg_parse.go:7571` (`st_case_216`). -/
def s216 : List Row :=
  [⟨9, 9, a2, 217⟩,
   ⟨32, 32, a2, 217⟩]

/-- `sip/msg_parse.go:7593` (`st_case_217`). -/
def s217 : List Row :=
  [⟨9, 9, a34, 217⟩,
   ⟨32, 32, a34, 217⟩,
   ⟨33, 33, a2, 213⟩,
   ⟨37, 37, a2, 213⟩,
   ⟨39, 39, a2, 213⟩,
   ⟨42, 43, a2, 213⟩,
   ⟨45, 46, a2, 213⟩,
   ⟨48, 57, a2, 213⟩,
   ⟨60, 60, a34, 190⟩,
   ⟨65, 90, a2, 213⟩,
   ⟨95, 122, a2, 213⟩,
   ⟨126, 126, a2, 213⟩,
   ⟨525, 525, a34, 210⟩]

/-- `sip/msg_parse.go:7653` (`st_case_218`). -/
def s218 : List Row :=
  [⟨9, 9, a7, 219⟩,
   ⟨32, 33, a7, 219⟩,
   ⟨34, 34, a8, 220⟩,
   ⟨35, 91, a7, 219⟩,
   ⟨92, 92, a8, 221⟩,
   ⟨93, 126, a7, 219⟩,
   ⟨192, 223, a7, 222⟩,
   ⟨224, 239, a7, 223⟩,
   ⟨240, 247, a7, 224⟩,
   ⟨248, 251, a7, 225⟩,
   ⟨252, 253, a7, 226⟩,
   ⟨525, 525, a7, 227⟩]

/-- `sip/msg_parse.go:7721` (`st_case_219`). -/
def s219 : List Row :=
  [⟨9, 9, a9, 219⟩,
   ⟨32, 33, a9, 219⟩,
   ⟨34, 34, a2, 220⟩,
   ⟨35, 91, a9, 219⟩,
   ⟨92, 92, a2, 221⟩,
   ⟨93, 126, a9, 219⟩,
   ⟨192, 223, a9, 222⟩,
   ⟨224, 239, a9, 223⟩,
   ⟨240, 247, a9, 224⟩,
   ⟨248, 251, a9, 225⟩,
   ⟨252, 253, a9, 226⟩,
   ⟨525, 525, a9, 227⟩]

/-- `sip/msg_parse.go:7777` (`st_case_220`). -/
def s220 : List Row :=
  [⟨9, 9, a35, 189⟩,
   ⟨32, 32, a35, 189⟩,
   ⟨60, 60, a35, 190⟩,
   ⟨525, 525, a35, 210⟩]

/-- `sip/msg_parse.go:7807` (`st_case_221`). -/
def s221 : List Row :=
  [⟨0, 9, a9, 219⟩,
   ⟨11, 12, a9, 219⟩,
   ⟨14, 127, a9, 219⟩]

/-- `sip/msg_parse.go:7844` (`st_case_222`). -/
def s222 : List Row :=
  [⟨128, 191, a9, 219⟩]

/-- `sip/msg_parse.go:7872` (`st_case_223`). -/
def s223 : List Row :=
  [⟨128, 191, a9, 222⟩]

/-- `sip/msg_parse.go:7900` (`st_case_224`). -/
def s224 : List Row :=
  [⟨128, 191, a9, 223⟩]

/-- `sip/msg_parse.go:7928` (`st_case_225`). -/
def s225 : List Row :=
  [⟨128, 191, a9, 224⟩]

/-- `sip/msg_parse.go:7956` (`st_case_226`). -/
def s226 : List Row :=
  [⟨128, 191, a9, 225⟩]

/-- `sip/msg_parse.go:7984` (`st_case_227`). -/
def s227 : List Row :=
  [⟨10, 10, a9, 228⟩]

/-- `sip/msg_parse.go:8001` (`st_case_228`). -/
def s228 : List Row :=
  [⟨9, 9, a9, 219⟩,
   ⟨32, 32, a9, 219⟩]

/-- `sip/msg_parse.go:8014` (`st_case_229`). -/
def s229 : List Row :=
  [⟨65, 90, a2, 230⟩,
   ⟨97, 122, a2, 230⟩]

/-- `sip/msg_parse.go:8028` (`st_case_230`). -/
def s230 : List Row :=
  [⟨43, 43, a2, 230⟩,
   ⟨45, 46, a2, 230⟩,
   ⟨48, 57, a2, 230⟩,
   ⟨58, 58, a2, 231⟩,
   ⟨65, 90, a2, 230⟩,
   ⟨97, 122, a2, 230⟩]

/-- `sip/msg_parse.go:8057` (`st_case_231`). -/
def s231 : List Row :=
  [⟨33, 33, a2, 232⟩,
   ⟨36, 59, a2, 232⟩,
   ⟨61, 61, a2, 232⟩,
   ⟨63, 91, a2, 232⟩,
   ⟨93, 93, a2, 232⟩,
   ⟨95, 95, a2, 232⟩,
   ⟨97, 122, a2, 232⟩,
   ⟨126, 126, a2, 232⟩]

/-- `sip/msg_parse.go:8087` (`st_case_232`). -/
def s232 : List Row :=
  [⟨9, 9, a30, 233⟩,
   ⟨32, 32, a30, 233⟩,
   ⟨33, 33, a2, 232⟩,
   ⟨36, 43, a2, 232⟩,
   ⟨44, 44, a30, 245⟩,
   ⟨45, 58, a2, 232⟩,
   ⟨59, 59, a30, 250⟩,
   ⟨61, 61, a2, 232⟩,
   ⟨63, 91, a2, 232⟩,
   ⟨93, 93, a2, 232⟩,
   ⟨95, 95, a2, 232⟩,
   ⟨97, 122, a2, 232⟩,
   ⟨126, 126, a2, 232⟩,
   ⟨269, 269, a30, 255⟩,
   ⟨525, 525, a30, 242⟩]

/-- `sip/msg_parse.go:8143` (`st_case_233`). -/
def s233 : List Row :=
  [⟨9, 9, a2, 233⟩,
   ⟨32, 32, a2, 233⟩,
   ⟨44, 44, a2, 234⟩,
   ⟨59, 59, a2, 238⟩,
   ⟨525, 525, a2, 242⟩]

/-- `sip/msg_parse.go:8169` (`st_case_234`). -/
def s234 : List Row :=
  [⟨0, 8, a31, 256⟩,
   ⟨9, 9, a2, 234⟩,
   ⟨10, 12, a31, 256⟩,
   ⟨14, 31, a31, 256⟩,
   ⟨32, 32, a2, 234⟩,
   ⟨33, 255, a31, 256⟩,
   ⟨269, 269, a31, 256⟩,
   ⟨525, 525, a2, 235⟩]

/-- `sip/msg_parse.go:8241` (`st_case_235`). -/
def s235 : List Row :=
  [⟨10, 10, a2, 236⟩]

/-- `sip/msg_parse.go:8250` (`st_case_236`). -/
def s236 : List Row :=
  [⟨9, 9, a2, 237⟩,
   ⟨32, 32, a2, 237⟩]

/-- `sip/msg_parse.go:8262` (`st_case_237`). -/
def s237 : List Row :=
  [⟨0, 8, a31, 256⟩,
   ⟨9, 9, a2, 237⟩,
   ⟨10, 31, a31, 256⟩,
   ⟨32, 32, a2, 237⟩,
   ⟨33, 255, a31, 256⟩]

/-- `sip/msg_parse.go:8274` (`st_case_238`). -/
def s238 : List Row :=
  [⟨0, 8, a32, 153⟩,
   ⟨9, 9, a2, 238⟩,
   ⟨10, 12, a32, 153⟩,
   ⟨14, 31, a32, 153⟩,
   ⟨32, 32, a2, 238⟩,
   ⟨33, 255, a32, 153⟩,
   ⟨269, 269, a32, 153⟩,
   ⟨525, 525, a2, 239⟩]

/-- `sip/msg_parse.go:8305` (`st_case_239`). -/
def s239 : List Row :=
  [⟨10, 10, a2, 240⟩]

/-- `sip/msg_parse.go:8314` (`st_case_240`). -/
def s240 : List Row :=
  [⟨9, 9, a2, 241⟩,
   ⟨32, 32, a2, 241⟩]

/-- `sip/msg_parse.go:8326` (`st_case_241`). -/
def s241 : List Row :=
  [⟨0, 8, a32, 153⟩,
   ⟨9, 9, a2, 241⟩,
   ⟨10, 31, a32, 153⟩,
   ⟨32, 32, a2, 241⟩,
   ⟨33, 255, a32, 153⟩]

/-- `sip/msg_parse.go:8345` (`st_case_242`). -/
def s242 : List Row :=
  [⟨10, 10, a2, 243⟩]

/-- `sip/msg_parse.go:8355` (`st_case_243`). -/
def s243 : List Row :=
  [⟨9, 9, a2, 244⟩,
   ⟨32, 32, a2, 244⟩]

/-- `sip/msg_parse.go:8367` (`st_case_244`). -/
def s244 : List Row :=
  [⟨9, 9, a2, 244⟩,
   ⟨32, 32, a2, 244⟩,
   ⟨44, 44, a2, 234⟩,
   ⟨59, 59, a2, 238⟩]

/-- `sip/msg_parse.go:8390` (`st_case_245`). -/
def s245 : List Row :=
  [⟨0, 8, a31, 256⟩,
   ⟨9, 9, a30, 246⟩,
   ⟨10, 12, a31, 256⟩,
   ⟨14, 31, a31, 256⟩,
   ⟨32, 32, a30, 246⟩,
   ⟨33, 43, a31, 256⟩,
   ⟨44, 44, a30, 245⟩,
   ⟨45, 58, a31, 256⟩,
   ⟨59, 59, a36, 256⟩,
   ⟨60, 255, a31, 256⟩,
   ⟨269, 269, a36, 256⟩,
   ⟨525, 525, a30, 247⟩]

/-- `sip/msg_parse.go:8456` (`st_case_246`). -/
def s246 : List Row :=
  [⟨0, 8, a31, 256⟩,
   ⟨9, 9, a2, 246⟩,
   ⟨10, 12, a31, 256⟩,
   ⟨14, 31, a31, 256⟩,
   ⟨32, 32, a2, 246⟩,
   ⟨33, 43, a31, 256⟩,
   ⟨44, 44, a2, 234⟩,
   ⟨45, 255, a31, 256⟩,
   ⟨269, 269, a31, 256⟩,
   ⟨525, 525, a2, 247⟩]

/-- `sip/msg_parse.go:8546` (`st_case_247`). -/
def s247 : List Row :=
  [⟨10, 10, a2, 248⟩]

/-- `sip/msg_parse.go:8556` (`st_case_248`). -/
def s248 : List Row :=
  [⟨9, 9, a2, 249⟩,
   ⟨32, 32, a2, 249⟩]

/-- `sip/msg_parse.go:8568` (`st_case_249`). -/
def s249 : List Row :=
  [⟨0, 8, a31, 256⟩,
   ⟨9, 9, a2, 249⟩,
   ⟨10, 31, a31, 256⟩,
   ⟨32, 32, a2, 249⟩,
   ⟨33, 43, a31, 256⟩,
   ⟨44, 44, a2, 234⟩,
   ⟨45, 255, a31, 256⟩]

/-- `sip/msg_parse.go:8665` (`st_case_250`). -/
def s250 : List Row :=
  [⟨0, 8, a32, 153⟩,
   ⟨9, 9, a30, 251⟩,
   ⟨10, 12, a32, 153⟩,
   ⟨14, 31, a32, 153⟩,
   ⟨32, 32, a30, 251⟩,
   ⟨33, 43, a32, 153⟩,
   ⟨44, 44, a37, 153⟩,
   ⟨45, 58, a32, 153⟩,
   ⟨59, 59, a30, 250⟩,
   ⟨60, 255, a32, 153⟩,
   ⟨269, 269, a37, 153⟩,
   ⟨525, 525, a30, 252⟩]

/-- `sip/msg_parse.go:8731` (`st_case_251`). -/
def s251 : List Row :=
  [⟨0, 8, a32, 153⟩,
   ⟨9, 9, a2, 251⟩,
   ⟨10, 12, a32, 153⟩,
   ⟨14, 31, a32, 153⟩,
   ⟨32, 32, a2, 251⟩,
   ⟨33, 58, a32, 153⟩,
   ⟨59, 59, a2, 238⟩,
   ⟨60, 255, a32, 153⟩,
   ⟨269, 269, a32, 153⟩,
   ⟨525, 525, a2, 252⟩]

/-- `sip/msg_parse.go:8815` (`st_case_252`). -/
def s252 : List Row :=
  [⟨10, 10, a2, 253⟩]

/-- `sip/msg_parse.go:8825` (`st_case_253`). -/
def s253 : List Row :=
  [⟨9, 9, a2, 254⟩,
   ⟨32, 32, a2, 254⟩]

/-- `sip/msg_parse.go:8837` (`st_case_254`). -/
def s254 : List Row :=
  [⟨0, 8, a32, 153⟩,
   ⟨9, 9, a2, 254⟩,
   ⟨10, 31, a32, 153⟩,
   ⟨32, 32, a2, 254⟩,
   ⟨33, 58, a32, 153⟩,
   ⟨59, 59, a2, 238⟩,
   ⟨60, 255, a32, 153⟩]

/-- `sip/msg_parse.go:9056` (`st_case_255`). -/
def s255 : List Row :=
  [⟨10, 10, a33, 280⟩]

/-- `sip/msg_parse.go:9066` (`st_case_256`). -/
def s256 : List Row :=
  [⟨33, 33, a0, 257⟩,
   ⟨34, 34, a38, 188⟩,
   ⟨37, 37, a0, 257⟩,
   ⟨39, 39, a0, 257⟩,
   ⟨42, 43, a0, 257⟩,
   ⟨45, 46, a0, 257⟩,
   ⟨48, 57, a0, 257⟩,
   ⟨60, 60, a38, 188⟩,
   ⟨65, 90, a0, 262⟩,
   ⟨95, 96, a0, 257⟩,
   ⟨97, 122, a0, 262⟩,
   ⟨126, 126, a0, 257⟩]

/-- `sip/msg_parse.go:9118` (`st_case_257`). -/
def s257 : List Row :=
  [⟨9, 9, a2, 258⟩,
   ⟨32, 32, a2, 258⟩,
   ⟨33, 33, a2, 257⟩,
   ⟨37, 37, a2, 257⟩,
   ⟨39, 39, a2, 257⟩,
   ⟨42, 43, a2, 257⟩,
   ⟨45, 46, a2, 257⟩,
   ⟨48, 57, a2, 257⟩,
   ⟨65, 90, a2, 257⟩,
   ⟨95, 122, a2, 257⟩,
   ⟨126, 126, a2, 257⟩,
   ⟨525, 525, a2, 259⟩]

/-- `sip/msg_parse.go:9170` (`st_case_258`). -/
def s258 : List Row :=
  [⟨9, 9, a2, 258⟩,
   ⟨32, 32, a2, 258⟩,
   ⟨33, 33, a2, 257⟩,
   ⟨37, 37, a2, 257⟩,
   ⟨39, 39, a2, 257⟩,
   ⟨42, 43, a2, 257⟩,
   ⟨45, 46, a2, 257⟩,
   ⟨48, 57, a2, 257⟩,
   ⟨60, 60, a39, 188⟩,
   ⟨65, 90, a2, 257⟩,
   ⟨95, 122, a2, 257⟩,
   ⟨126, 126, a2, 257⟩,
   ⟨525, 525, a2, 259⟩]

/-- `sip/msg_parse.go:9269` (`st_case_259`). -/
def s259 : List Row :=
  [⟨10, 10, a2, 260⟩]

/-- `sip/msg_parse.go:9278` (`st_case_260`). -/
def s260 : List Row :=
  [⟨9, 9, a2, 261⟩,
   ⟨32, 32, a2, 261⟩]

/-- `sip/msg_parse.go:9290` (`st_case_261`). -/
def s261 : List Row :=
  [⟨9, 9, a2, 261⟩,
   ⟨32, 32, a2, 261⟩,
   ⟨33, 33, a2, 257⟩,
   ⟨37, 37, a2, 257⟩,
   ⟨39, 39, a2, 257⟩,
   ⟨42, 43, a2, 257⟩,
   ⟨45, 46, a2, 257⟩,
   ⟨48, 57, a2, 257⟩,
   ⟨60, 60, a39, 188⟩,
   ⟨65, 90, a2, 257⟩,
   ⟨95, 122, a2, 257⟩,
   ⟨126, 126, a2, 257⟩]

/-- `sip/msg_parse.go:9340` (`st_case_262`). -/
def s262 : List Row :=
  [⟨9, 9, a2, 258⟩,
   ⟨32, 32, a2, 258⟩,
   ⟨33, 33, a2, 257⟩,
   ⟨37, 37, a2, 257⟩,
   ⟨39, 39, a2, 257⟩,
   ⟨42, 42, a2, 257⟩,
   ⟨43, 43, a2, 262⟩,
   ⟨45, 46, a2, 262⟩,
   ⟨48, 57, a2, 262⟩,
   ⟨58, 58, a39, 229⟩,
   ⟨65, 90, a2, 262⟩,
   ⟨95, 96, a2, 257⟩,
   ⟨97, 122, a2, 262⟩,
   ⟨126, 126, a2, 257⟩,
   ⟨525, 525, a2, 259⟩]

/-- `sip/msg_parse.go:9398` (`st_case_263`). -/
def s263 : List Row :=
  [⟨9, 9, a0, 264⟩,
   ⟨32, 127, a0, 264⟩,
   ⟨192, 223, a0, 265⟩,
   ⟨224, 239, a0, 266⟩,
   ⟨240, 247, a0, 267⟩,
   ⟨248, 251, a0, 268⟩,
   ⟨252, 253, a0, 269⟩,
   ⟨269, 269, a0, 270⟩,
   ⟨525, 525, a0, 271⟩]

/-- `sip/msg_parse.go:9451` (`st_case_264`). -/
def s264 : List Row :=
  [⟨9, 9, a2, 264⟩,
   ⟨32, 127, a2, 264⟩,
   ⟨192, 223, a2, 265⟩,
   ⟨224, 239, a2, 266⟩,
   ⟨240, 247, a2, 267⟩,
   ⟨248, 251, a2, 268⟩,
   ⟨252, 253, a2, 269⟩,
   ⟨269, 269, a2, 270⟩,
   ⟨525, 525, a2, 271⟩]

/-- `sip/msg_parse.go:9505` (`st_case_265`). -/
def s265 : List Row :=
  [⟨128, 191, a2, 264⟩]

/-- `sip/msg_parse.go:9521` (`st_case_266`). -/
def s266 : List Row :=
  [⟨128, 191, a2, 265⟩]

/-- `sip/msg_parse.go:9537` (`st_case_267`). -/
def s267 : List Row :=
  [⟨128, 191, a2, 266⟩]

/-- `sip/msg_parse.go:9553` (`st_case_268`). -/
def s268 : List Row :=
  [⟨128, 191, a2, 267⟩]

/-- `sip/msg_parse.go:9569` (`st_case_269`). -/
def s269 : List Row :=
  [⟨128, 191, a2, 268⟩]

/-- `sip/msg_parse.go:9585` (`st_case_270`). -/
def s270 : List Row :=
  [⟨10, 10, a40, 280⟩]

/-- `sip/msg_parse.go:9621` (`st_case_271`). -/
def s271 : List Row :=
  [⟨10, 10, a2, 272⟩]

/-- `sip/msg_parse.go:9631` (`st_case_272`). -/
def s272 : List Row :=
  [⟨9, 9, a2, 264⟩,
   ⟨32, 32, a2, 264⟩]

/-- `sip/msg_parse.go:9643` (`st_case_273`). -/
def s273 : List Row :=
  [⟨33, 33, a2, 274⟩,
   ⟨37, 37, a2, 274⟩,
   ⟨39, 39, a2, 274⟩,
   ⟨42, 43, a2, 274⟩,
   ⟨45, 46, a2, 274⟩,
   ⟨48, 57, a2, 274⟩,
   ⟨65, 90, a2, 274⟩,
   ⟨95, 122, a2, 274⟩,
   ⟨126, 126, a2, 274⟩]

/-- `sip/msg_parse.go:9681` (`st_case_274`). -/
def s274 : List Row :=
  [⟨9, 9, a15, 275⟩,
   ⟨32, 32, a15, 275⟩,
   ⟨33, 33, a2, 274⟩,
   ⟨37, 37, a2, 274⟩,
   ⟨39, 39, a2, 274⟩,
   ⟨42, 43, a2, 274⟩,
   ⟨45, 46, a2, 274⟩,
   ⟨48, 57, a2, 274⟩,
   ⟨58, 58, a15, 276⟩,
   ⟨65, 90, a2, 274⟩,
   ⟨95, 122, a2, 274⟩,
   ⟨126, 126, a2, 274⟩]

/-- `sip/msg_parse.go:9731` (`st_case_275`). -/
def s275 : List Row :=
  [⟨9, 9, a2, 275⟩,
   ⟨32, 32, a2, 275⟩,
   ⟨58, 58, a2, 276⟩]

/-- `sip/msg_parse.go:9752` (`st_case_276`). -/
def s276 : List Row :=
  [⟨0, 8, a41, 263⟩,
   ⟨9, 9, a2, 276⟩,
   ⟨10, 12, a41, 263⟩,
   ⟨14, 31, a41, 263⟩,
   ⟨32, 32, a2, 276⟩,
   ⟨33, 255, a41, 263⟩,
   ⟨269, 269, a41, 263⟩,
   ⟨525, 525, a2, 277⟩]

/-- `sip/msg_parse.go:9802` (`st_case_277`). -/
def s277 : List Row :=
  [⟨10, 10, a2, 278⟩]

/-- `sip/msg_parse.go:9811` (`st_case_278`). -/
def s278 : List Row :=
  [⟨9, 9, a2, 279⟩,
   ⟨32, 32, a2, 279⟩]

/-- `sip/msg_parse.go:9823` (`st_case_279`). -/
def s279 : List Row :=
  [⟨0, 8, a41, 263⟩,
   ⟨9, 9, a2, 279⟩,
   ⟨10, 31, a41, 263⟩,
   ⟨32, 32, a2, 279⟩,
   ⟨33, 255, a41, 263⟩]

/-- `sip/msg_parse.go:9835` (`st_case_280`). -/
def s280 : List Row :=
  [⟨33, 33, a42, 281⟩,
   ⟨37, 37, a42, 281⟩,
   ⟨39, 39, a42, 281⟩,
   ⟨42, 43, a42, 281⟩,
   ⟨45, 46, a42, 281⟩,
   ⟨48, 57, a42, 281⟩,
   ⟨65, 90, a42, 281⟩,
   ⟨95, 122, a42, 281⟩,
   ⟨126, 126, a42, 281⟩,
   ⟨269, 269, a2, 764⟩]

/-- `sip/msg_parse.go:9893` (`st_case_281`). -/
def s281 : List Row :=
  [⟨0, 64, a32, 273⟩,
   ⟨65, 65, a2, 282⟩,
   ⟨66, 66, a2, 363⟩,
   ⟨67, 67, a2, 364⟩,
   ⟨68, 68, a2, 459⟩,
   ⟨69, 69, a2, 463⟩,
   ⟨70, 70, a2, 489⟩,
   ⟨71, 72, a32, 273⟩,
   ⟨73, 73, a2, 493⟩,
   ⟨74, 74, a32, 273⟩,
   ⟨75, 75, a2, 504⟩,
   ⟨76, 76, a2, 505⟩,
   ⟨77, 77, a2, 512⟩,
   ⟨78, 78, a32, 273⟩,
   ⟨79, 79, a2, 556⟩,
   ⟨80, 80, a2, 568⟩,
   ⟨81, 81, a32, 273⟩,
   ⟨82, 82, a2, 626⟩,
   ⟨83, 83, a2, 686⟩,
   ⟨84, 84, a2, 704⟩,
   ⟨85, 85, a2, 714⟩,
   ⟨86, 86, a2, 734⟩,
   ⟨87, 87, a2, 742⟩,
   ⟨88, 96, a32, 273⟩,
   ⟨97, 97, a2, 282⟩,
   ⟨98, 98, a2, 363⟩,
   ⟨99, 99, a2, 364⟩,
   ⟨100, 100, a2, 459⟩,
   ⟨101, 101, a2, 463⟩,
   ⟨102, 102, a2, 489⟩,
   ⟨103, 104, a32, 273⟩,
   ⟨105, 105, a2, 493⟩,
   ⟨106, 106, a32, 273⟩,
   ⟨107, 107, a2, 504⟩,
   ⟨108, 108, a2, 505⟩,
   ⟨109, 109, a2, 512⟩,
   ⟨110, 110, a32, 273⟩,
   ⟨111, 111, a2, 556⟩,
   ⟨112, 112, a2, 568⟩,
   ⟨113, 113, a32, 273⟩,
   ⟨114, 114, a2, 626⟩,
   ⟨115, 115, a2, 686⟩,
   ⟨116, 116, a2, 704⟩,
   ⟨117, 117, a2, 714⟩,
   ⟨118, 118, a2, 734⟩,
   ⟨119, 119, a2, 742⟩,
   ⟨120, 255, a32, 273⟩]

/-- `sip/msg_parse.go:9974` (`st_case_282`). -/
def s282 : List Row :=
  [⟨0, 8, a32, 273⟩,
   ⟨9, 9, a43, 283⟩,
   ⟨10, 31, a32, 273⟩,
   ⟨32, 32, a43, 283⟩,
   ⟨33, 57, a32, 273⟩,
   ⟨58, 58, a43, 284⟩,
   ⟨59, 66, a32, 273⟩,
   ⟨67, 67, a2, 288⟩,
   ⟨68, 75, a32, 273⟩,
   ⟨76, 76, a2, 317⟩,
   ⟨77, 84, a32, 273⟩,
   ⟨85, 85, a2, 336⟩,
   ⟨86, 98, a32, 273⟩,
   ⟨99, 99, a2, 288⟩,
   ⟨100, 107, a32, 273⟩,
   ⟨108, 108, a2, 317⟩,
   ⟨109, 116, a32, 273⟩,
   ⟨117, 117, a2, 336⟩,
   ⟨118, 255, a32, 273⟩]

/-- `sip/msg_parse.go:10150` (`st_case_283`). -/
def s283 : List Row :=
  [⟨9, 9, a2, 283⟩,
   ⟨32, 32, a2, 283⟩,
   ⟨58, 58, a2, 284⟩]

/-- `sip/msg_parse.go:10315` (`st_case_284`). -/
def s284 : List Row :=
  [⟨0, 8, a32, 263⟩,
   ⟨9, 9, a2, 284⟩,
   ⟨10, 12, a32, 263⟩,
   ⟨14, 31, a32, 263⟩,
   ⟨32, 32, a2, 284⟩,
   ⟨33, 255, a32, 263⟩,
   ⟨269, 269, a32, 263⟩,
   ⟨525, 525, a2, 285⟩]

/-- `sip/msg_parse.go:10406` (`st_case_285`). -/
def s285 : List Row :=
  [⟨10, 10, a2, 286⟩]

/-- `sip/msg_parse.go:10415` (`st_case_286`). -/
def s286 : List Row :=
  [⟨9, 9, a2, 287⟩,
   ⟨32, 32, a2, 287⟩]

/-- `sip/msg_parse.go:10427` (`st_case_287`). -/
def s287 : List Row :=
  [⟨0, 8, a32, 263⟩,
   ⟨9, 9, a2, 287⟩,
   ⟨10, 31, a32, 263⟩,
   ⟨32, 32, a2, 287⟩,
   ⟨33, 255, a32, 263⟩]

/-- `sip/msg_parse.go:10439` (`st_case_288`). -/
def s288 : List Row :=
  [⟨0, 66, a32, 273⟩,
   ⟨67, 67, a2, 289⟩,
   ⟨68, 98, a32, 273⟩,
   ⟨99, 99, a2, 289⟩,
   ⟨100, 255, a32, 273⟩]

/-- `sip/msg_parse.go:10451` (`st_case_289`). -/
def s289 : List Row :=
  [⟨0, 68, a32, 273⟩,
   ⟨69, 69, a2, 290⟩,
   ⟨70, 100, a32, 273⟩,
   ⟨101, 101, a2, 290⟩,
   ⟨102, 255, a32, 273⟩]

/-- `sip/msg_parse.go:10463` (`st_case_290`). -/
def s290 : List Row :=
  [⟨0, 79, a32, 273⟩,
   ⟨80, 80, a2, 291⟩,
   ⟨81, 111, a32, 273⟩,
   ⟨112, 112, a2, 291⟩,
   ⟨113, 255, a32, 273⟩]

/-- `sip/msg_parse.go:10475` (`st_case_291`). -/
def s291 : List Row :=
  [⟨0, 83, a32, 273⟩,
   ⟨84, 84, a2, 292⟩,
   ⟨85, 115, a32, 273⟩,
   ⟨116, 116, a2, 292⟩,
   ⟨117, 255, a32, 273⟩]

/-- `sip/msg_parse.go:10487` (`st_case_292`). -/
def s292 : List Row :=
  [⟨0, 8, a32, 273⟩,
   ⟨9, 9, a44, 283⟩,
   ⟨10, 31, a32, 273⟩,
   ⟨32, 32, a44, 283⟩,
   ⟨33, 44, a32, 273⟩,
   ⟨45, 45, a2, 293⟩,
   ⟨46, 57, a32, 273⟩,
   ⟨58, 58, a44, 284⟩,
   ⟨59, 255, a32, 273⟩]

/-- `sip/msg_parse.go:10503` (`st_case_293`). -/
def s293 : List Row :=
  [⟨0, 66, a32, 273⟩,
   ⟨67, 67, a2, 294⟩,
   ⟨68, 68, a32, 273⟩,
   ⟨69, 69, a2, 301⟩,
   ⟨70, 75, a32, 273⟩,
   ⟨76, 76, a2, 309⟩,
   ⟨77, 98, a32, 273⟩,
   ⟨99, 99, a2, 294⟩,
   ⟨100, 100, a32, 273⟩,
   ⟨101, 101, a2, 301⟩,
   ⟨102, 107, a32, 273⟩,
   ⟨108, 108, a2, 309⟩,
   ⟨109, 255, a32, 273⟩]

/-- `sip/msg_parse.go:10523` (`st_case_294`). -/
def s294 : List Row :=
  [⟨0, 78, a32, 273⟩,
   ⟨79, 79, a2, 295⟩,
   ⟨80, 110, a32, 273⟩,
   ⟨111, 111, a2, 295⟩,
   ⟨112, 255, a32, 273⟩]

/-- `sip/msg_parse.go:10535` (`st_case_295`). -/
def s295 : List Row :=
  [⟨0, 77, a32, 273⟩,
   ⟨78, 78, a2, 296⟩,
   ⟨79, 109, a32, 273⟩,
   ⟨110, 110, a2, 296⟩,
   ⟨111, 255, a32, 273⟩]

/-- `sip/msg_parse.go:10547` (`st_case_296`). -/
def s296 : List Row :=
  [⟨0, 83, a32, 273⟩,
   ⟨84, 84, a2, 297⟩,
   ⟨85, 115, a32, 273⟩,
   ⟨116, 116, a2, 297⟩,
   ⟨117, 255, a32, 273⟩]

/-- `sip/msg_parse.go:10559` (`st_case_297`). -/
def s297 : List Row :=
  [⟨0, 64, a32, 273⟩,
   ⟨65, 65, a2, 298⟩,
   ⟨66, 96, a32, 273⟩,
   ⟨97, 97, a2, 298⟩,
   ⟨98, 255, a32, 273⟩]

/-- `sip/msg_parse.go:10571` (`st_case_298`). -/
def s298 : List Row :=
  [⟨0, 66, a32, 273⟩,
   ⟨67, 67, a2, 299⟩,
   ⟨68, 98, a32, 273⟩,
   ⟨99, 99, a2, 299⟩,
   ⟨100, 255, a32, 273⟩]

/-- `sip/msg_parse.go:10583` (`st_case_299`). -/
def s299 : List Row :=
  [⟨0, 83, a32, 273⟩,
   ⟨84, 84, a2, 300⟩,
   ⟨85, 115, a32, 273⟩,
   ⟨116, 116, a2, 300⟩,
   ⟨117, 255, a32, 273⟩]

/-- `sip/msg_parse.go:10595` (`st_case_300`). -/
def s300 : List Row :=
  [⟨0, 8, a32, 273⟩,
   ⟨9, 9, a43, 283⟩,
   ⟨10, 31, a32, 273⟩,
   ⟨32, 32, a43, 283⟩,
   ⟨33, 57, a32, 273⟩,
   ⟨58, 58, a43, 284⟩,
   ⟨59, 255, a32, 273⟩]

/-- `sip/msg_parse.go:10609` (`st_case_301`). -/
def s301 : List Row :=
  [⟨0, 77, a32, 273⟩,
   ⟨78, 78, a2, 302⟩,
   ⟨79, 109, a32, 273⟩,
   ⟨110, 110, a2, 302⟩,
   ⟨111, 255, a32, 273⟩]

/-- `sip/msg_parse.go:10621` (`st_case_302`). -/
def s302 : List Row :=
  [⟨0, 66, a32, 273⟩,
   ⟨67, 67, a2, 303⟩,
   ⟨68, 98, a32, 273⟩,
   ⟨99, 99, a2, 303⟩,
   ⟨100, 255, a32, 273⟩]

/-- `sip/msg_parse.go:10633` (`st_case_303`). -/
def s303 : List Row :=
  [⟨0, 78, a32, 273⟩,
   ⟨79, 79, a2, 304⟩,
   ⟨80, 110, a32, 273⟩,
   ⟨111, 111, a2, 304⟩,
   ⟨112, 255, a32, 273⟩]

/-- `sip/msg_parse.go:10645` (`st_case_304`). -/
def s304 : List Row :=
  [⟨0, 67, a32, 273⟩,
   ⟨68, 68, a2, 305⟩,
   ⟨69, 99, a32, 273⟩,
   ⟨100, 100, a2, 305⟩,
   ⟨101, 255, a32, 273⟩]

/-- `sip/msg_parse.go:10657` (`st_case_305`). -/
def s305 : List Row :=
  [⟨0, 72, a32, 273⟩,
   ⟨73, 73, a2, 306⟩,
   ⟨74, 104, a32, 273⟩,
   ⟨105, 105, a2, 306⟩,
   ⟨106, 255, a32, 273⟩]

/-- `sip/msg_parse.go:10669` (`st_case_306`). -/
def s306 : List Row :=
  [⟨0, 77, a32, 273⟩,
   ⟨78, 78, a2, 307⟩,
   ⟨79, 109, a32, 273⟩,
   ⟨110, 110, a2, 307⟩,
   ⟨111, 255, a32, 273⟩]

/-- `sip/msg_parse.go:10681` (`st_case_307`). -/
def s307 : List Row :=
  [⟨0, 70, a32, 273⟩,
   ⟨71, 71, a2, 308⟩,
   ⟨72, 102, a32, 273⟩,
   ⟨103, 103, a2, 308⟩,
   ⟨104, 255, a32, 273⟩]

/-- `sip/msg_parse.go:10693` (`st_case_308`). -/
def s308 : List Row :=
  [⟨0, 8, a32, 273⟩,
   ⟨9, 9, a45, 283⟩,
   ⟨10, 31, a32, 273⟩,
   ⟨32, 32, a45, 283⟩,
   ⟨33, 57, a32, 273⟩,
   ⟨58, 58, a45, 284⟩,
   ⟨59, 255, a32, 273⟩]

/-- `sip/msg_parse.go:10707` (`st_case_309`). -/
def s309 : List Row :=
  [⟨0, 64, a32, 273⟩,
   ⟨65, 65, a2, 310⟩,
   ⟨66, 96, a32, 273⟩,
   ⟨97, 97, a2, 310⟩,
   ⟨98, 255, a32, 273⟩]

/-- `sip/msg_parse.go:10719` (`st_case_310`). -/
def s310 : List Row :=
  [⟨0, 77, a32, 273⟩,
   ⟨78, 78, a2, 311⟩,
   ⟨79, 109, a32, 273⟩,
   ⟨110, 110, a2, 311⟩,
   ⟨111, 255, a32, 273⟩]

/-- `sip/msg_parse.go:10731` (`st_case_311`). -/
def s311 : List Row :=
  [⟨0, 70, a32, 273⟩,
   ⟨71, 71, a2, 312⟩,
   ⟨72, 102, a32, 273⟩,
   ⟨103, 103, a2, 312⟩,
   ⟨104, 255, a32, 273⟩]

/-- `sip/msg_parse.go:10743` (`st_case_312`). -/
def s312 : List Row :=
  [⟨0, 84, a32, 273⟩,
   ⟨85, 85, a2, 313⟩,
   ⟨86, 116, a32, 273⟩,
   ⟨117, 117, a2, 313⟩,
   ⟨118, 255, a32, 273⟩]

/-- `sip/msg_parse.go:10755` (`st_case_313`). -/
def s313 : List Row :=
  [⟨0, 64, a32, 273⟩,
   ⟨65, 65, a2, 314⟩,
   ⟨66, 96, a32, 273⟩,
   ⟨97, 97, a2, 314⟩,
   ⟨98, 255, a32, 273⟩]

/-- `sip/msg_parse.go:10767` (`st_case_314`). -/
def s314 : List Row :=
  [⟨0, 70, a32, 273⟩,
   ⟨71, 71, a2, 315⟩,
   ⟨72, 102, a32, 273⟩,
   ⟨103, 103, a2, 315⟩,
   ⟨104, 255, a32, 273⟩]

/-- `sip/msg_parse.go:10779` (`st_case_315`). -/
def s315 : List Row :=
  [⟨0, 68, a32, 273⟩,
   ⟨69, 69, a2, 316⟩,
   ⟨70, 100, a32, 273⟩,
   ⟨101, 101, a2, 316⟩,
   ⟨102, 255, a32, 273⟩]

/-- `sip/msg_parse.go:10791` (`st_case_316`). -/
def s316 : List Row :=
  [⟨0, 8, a32, 273⟩,
   ⟨9, 9, a46, 283⟩,
   ⟨10, 31, a32, 273⟩,
   ⟨32, 32, a46, 283⟩,
   ⟨33, 57, a32, 273⟩,
   ⟨58, 58, a46, 284⟩,
   ⟨59, 255, a32, 273⟩]

/-- `sip/msg_parse.go:10805` (`st_case_317`). -/
def s317 : List Row :=
  [⟨0, 68, a32, 273⟩,
   ⟨69, 69, a2, 318⟩,
   ⟨70, 75, a32, 273⟩,
   ⟨76, 76, a2, 326⟩,
   ⟨77, 100, a32, 273⟩,
   ⟨101, 101, a2, 318⟩,
   ⟨102, 107, a32, 273⟩,
   ⟨108, 108, a2, 326⟩,
   ⟨109, 255, a32, 273⟩]

/-- `sip/msg_parse.go:10821` (`st_case_318`). -/
def s318 : List Row :=
  [⟨0, 81, a32, 273⟩,
   ⟨82, 82, a2, 319⟩,
   ⟨83, 113, a32, 273⟩,
   ⟨114, 114, a2, 319⟩,
   ⟨115, 255, a32, 273⟩]

/-- `sip/msg_parse.go:10833` (`st_case_319`). -/
def s319 : List Row :=
  [⟨0, 83, a32, 273⟩,
   ⟨84, 84, a2, 320⟩,
   ⟨85, 115, a32, 273⟩,
   ⟨116, 116, a2, 320⟩,
   ⟨117, 255, a32, 273⟩]

/-- `sip/msg_parse.go:10845` (`st_case_320`). -/
def s320 : List Row :=
  [⟨0, 44, a32, 273⟩,
   ⟨45, 45, a2, 321⟩,
   ⟨46, 255, a32, 273⟩]

/-- `sip/msg_parse.go:10854` (`st_case_321`). -/
def s321 : List Row :=
  [⟨0, 72, a32, 273⟩,
   ⟨73, 73, a2, 322⟩,
   ⟨74, 104, a32, 273⟩,
   ⟨105, 105, a2, 322⟩,
   ⟨106, 255, a32, 273⟩]

/-- `sip/msg_parse.go:10866` (`st_case_322`). -/
def s322 : List Row :=
  [⟨0, 77, a32, 273⟩,
   ⟨78, 78, a2, 323⟩,
   ⟨79, 109, a32, 273⟩,
   ⟨110, 110, a2, 323⟩,
   ⟨111, 255, a32, 273⟩]

/-- `sip/msg_parse.go:10878` (`st_case_323`). -/
def s323 : List Row :=
  [⟨0, 69, a32, 273⟩,
   ⟨70, 70, a2, 324⟩,
   ⟨71, 101, a32, 273⟩,
   ⟨102, 102, a2, 324⟩,
   ⟨103, 255, a32, 273⟩]

/-- `sip/msg_parse.go:10890` (`st_case_324`). -/
def s324 : List Row :=
  [⟨0, 78, a32, 273⟩,
   ⟨79, 79, a2, 325⟩,
   ⟨80, 110, a32, 273⟩,
   ⟨111, 111, a2, 325⟩,
   ⟨112, 255, a32, 273⟩]

/-- `sip/msg_parse.go:10902` (`st_case_325`). -/
def s325 : List Row :=
  [⟨0, 8, a32, 273⟩,
   ⟨9, 9, a47, 283⟩,
   ⟨10, 31, a32, 273⟩,
   ⟨32, 32, a47, 283⟩,
   ⟨33, 57, a32, 273⟩,
   ⟨58, 58, a47, 284⟩,
   ⟨59, 255, a32, 273⟩]

/-- `sip/msg_parse.go:10916` (`st_case_326`). -/
def s326 : List Row :=
  [⟨0, 78, a32, 273⟩,
   ⟨79, 79, a2, 327⟩,
   ⟨80, 110, a32, 273⟩,
   ⟨111, 111, a2, 327⟩,
   ⟨112, 255, a32, 273⟩]

/-- `sip/msg_parse.go:10928` (`st_case_327`). -/
def s327 : List Row :=
  [⟨0, 86, a32, 273⟩,
   ⟨87, 87, a2, 328⟩,
   ⟨88, 118, a32, 273⟩,
   ⟨119, 119, a2, 328⟩,
   ⟨120, 255, a32, 273⟩]

/-- `sip/msg_parse.go:10940` (`st_case_328`). -/
def s328 : List Row :=
  [⟨0, 8, a32, 273⟩,
   ⟨9, 9, a48, 283⟩,
   ⟨10, 31, a32, 273⟩,
   ⟨32, 32, a48, 283⟩,
   ⟨33, 44, a32, 273⟩,
   ⟨45, 45, a2, 329⟩,
   ⟨46, 57, a32, 273⟩,
   ⟨58, 58, a48, 284⟩,
   ⟨59, 255, a32, 273⟩]

/-- `sip/msg_parse.go:10956` (`st_case_329`). -/
def s329 : List Row :=
  [⟨0, 68, a32, 273⟩,
   ⟨69, 69, a2, 330⟩,
   ⟨70, 100, a32, 273⟩,
   ⟨101, 101, a2, 330⟩,
   ⟨102, 255, a32, 273⟩]

/-- `sip/msg_parse.go:10968` (`st_case_330`). -/
def s330 : List Row :=
  [⟨0, 85, a32, 273⟩,
   ⟨86, 86, a2, 331⟩,
   ⟨87, 117, a32, 273⟩,
   ⟨118, 118, a2, 331⟩,
   ⟨119, 255, a32, 273⟩]

/-- `sip/msg_parse.go:10980` (`st_case_331`). -/
def s331 : List Row :=
  [⟨0, 68, a32, 273⟩,
   ⟨69, 69, a2, 332⟩,
   ⟨70, 100, a32, 273⟩,
   ⟨101, 101, a2, 332⟩,
   ⟨102, 255, a32, 273⟩]

/-- `sip/msg_parse.go:10992` (`st_case_332`). -/
def s332 : List Row :=
  [⟨0, 77, a32, 273⟩,
   ⟨78, 78, a2, 333⟩,
   ⟨79, 109, a32, 273⟩,
   ⟨110, 110, a2, 333⟩,
   ⟨111, 255, a32, 273⟩]

/-- `sip/msg_parse.go:11004` (`st_case_333`). -/
def s333 : List Row :=
  [⟨0, 83, a32, 273⟩,
   ⟨84, 84, a2, 334⟩,
   ⟨85, 115, a32, 273⟩,
   ⟨116, 116, a2, 334⟩,
   ⟨117, 255, a32, 273⟩]

/-- `sip/msg_parse.go:11016` (`st_case_334`). -/
def s334 : List Row :=
  [⟨0, 82, a32, 273⟩,
   ⟨83, 83, a2, 335⟩,
   ⟨84, 114, a32, 273⟩,
   ⟨115, 115, a2, 335⟩,
   ⟨116, 255, a32, 273⟩]

/-- `sip/msg_parse.go:11028` (`st_case_335`). -/
def s335 : List Row :=
  [⟨0, 8, a32, 273⟩,
   ⟨9, 9, a49, 283⟩,
   ⟨10, 31, a32, 273⟩,
   ⟨32, 32, a49, 283⟩,
   ⟨33, 57, a32, 273⟩,
   ⟨58, 58, a49, 284⟩,
   ⟨59, 255, a32, 273⟩]

/-- `sip/msg_parse.go:11042` (`st_case_336`). -/
def s336 : List Row :=
  [⟨0, 83, a32, 273⟩,
   ⟨84, 84, a2, 337⟩,
   ⟨85, 115, a32, 273⟩,
   ⟨116, 116, a2, 337⟩,
   ⟨117, 255, a32, 273⟩]

/-- `sip/msg_parse.go:11054` (`st_case_337`). -/
def s337 : List Row :=
  [⟨0, 71, a32, 273⟩,
   ⟨72, 72, a2, 338⟩,
   ⟨73, 103, a32, 273⟩,
   ⟨104, 104, a2, 338⟩,
   ⟨105, 255, a32, 273⟩]

/-- `sip/msg_parse.go:11066` (`st_case_338`). -/
def s338 : List Row :=
  [⟨0, 68, a32, 273⟩,
   ⟨69, 69, a2, 339⟩,
   ⟨70, 78, a32, 273⟩,
   ⟨79, 79, a2, 354⟩,
   ⟨80, 100, a32, 273⟩,
   ⟨101, 101, a2, 339⟩,
   ⟨102, 110, a32, 273⟩,
   ⟨111, 111, a2, 354⟩,
   ⟨112, 255, a32, 273⟩]

/-- `sip/msg_parse.go:11082` (`st_case_339`). -/
def s339 : List Row :=
  [⟨0, 77, a32, 273⟩,
   ⟨78, 78, a2, 340⟩,
   ⟨79, 109, a32, 273⟩,
   ⟨110, 110, a2, 340⟩,
   ⟨111, 255, a32, 273⟩]

/-- `sip/msg_parse.go:11094` (`st_case_340`). -/
def s340 : List Row :=
  [⟨0, 83, a32, 273⟩,
   ⟨84, 84, a2, 341⟩,
   ⟨85, 115, a32, 273⟩,
   ⟨116, 116, a2, 341⟩,
   ⟨117, 255, a32, 273⟩]

/-- `sip/msg_parse.go:11106` (`st_case_341`). -/
def s341 : List Row :=
  [⟨0, 72, a32, 273⟩,
   ⟨73, 73, a2, 342⟩,
   ⟨74, 104, a32, 273⟩,
   ⟨105, 105, a2, 342⟩,
   ⟨106, 255, a32, 273⟩]

/-- `sip/msg_parse.go:11118` (`st_case_342`). -/
def s342 : List Row :=
  [⟨0, 66, a32, 273⟩,
   ⟨67, 67, a2, 343⟩,
   ⟨68, 98, a32, 273⟩,
   ⟨99, 99, a2, 343⟩,
   ⟨100, 255, a32, 273⟩]

/-- `sip/msg_parse.go:11130` (`st_case_343`). -/
def s343 : List Row :=
  [⟨0, 64, a32, 273⟩,
   ⟨65, 65, a2, 344⟩,
   ⟨66, 96, a32, 273⟩,
   ⟨97, 97, a2, 344⟩,
   ⟨98, 255, a32, 273⟩]

/-- `sip/msg_parse.go:11142` (`st_case_344`). -/
def s344 : List Row :=
  [⟨0, 83, a32, 273⟩,
   ⟨84, 84, a2, 345⟩,
   ⟨85, 115, a32, 273⟩,
   ⟨116, 116, a2, 345⟩,
   ⟨117, 255, a32, 273⟩]

/-- `sip/msg_parse.go:11154` (`st_case_345`). -/
def s345 : List Row :=
  [⟨0, 72, a32, 273⟩,
   ⟨73, 73, a2, 346⟩,
   ⟨74, 104, a32, 273⟩,
   ⟨105, 105, a2, 346⟩,
   ⟨106, 255, a32, 273⟩]

/-- `sip/msg_parse.go:11166` (`st_case_346`). -/
def s346 : List Row :=
  [⟨0, 78, a32, 273⟩,
   ⟨79, 79, a2, 347⟩,
   ⟨80, 110, a32, 273⟩,
   ⟨111, 111, a2, 347⟩,
   ⟨112, 255, a32, 273⟩]

/-- `sip/msg_parse.go:11178` (`st_case_347`). -/
def s347 : List Row :=
  [⟨0, 77, a32, 273⟩,
   ⟨78, 78, a2, 348⟩,
   ⟨79, 109, a32, 273⟩,
   ⟨110, 110, a2, 348⟩,
   ⟨111, 255, a32, 273⟩]

/-- `sip/msg_parse.go:11190` (`st_case_348`). -/
def s348 : List Row :=
  [⟨0, 44, a32, 273⟩,
   ⟨45, 45, a2, 349⟩,
   ⟨46, 255, a32, 273⟩]

/-- `sip/msg_parse.go:11199` (`st_case_349`). -/
def s349 : List Row :=
  [⟨0, 72, a32, 273⟩,
   ⟨73, 73, a2, 350⟩,
   ⟨74, 104, a32, 273⟩,
   ⟨105, 105, a2, 350⟩,
   ⟨106, 255, a32, 273⟩]

/-- `sip/msg_parse.go:11211` (`st_case_350`). -/
def s350 : List Row :=
  [⟨0, 77, a32, 273⟩,
   ⟨78, 78, a2, 351⟩,
   ⟨79, 109, a32, 273⟩,
   ⟨110, 110, a2, 351⟩,
   ⟨111, 255, a32, 273⟩]

/-- `sip/msg_parse.go:11223` (`st_case_351`). -/
def s351 : List Row :=
  [⟨0, 69, a32, 273⟩,
   ⟨70, 70, a2, 352⟩,
   ⟨71, 101, a32, 273⟩,
   ⟨102, 102, a2, 352⟩,
   ⟨103, 255, a32, 273⟩]

/-- `sip/msg_parse.go:11235` (`st_case_352`). -/
def s352 : List Row :=
  [⟨0, 78, a32, 273⟩,
   ⟨79, 79, a2, 353⟩,
   ⟨80, 110, a32, 273⟩,
   ⟨111, 111, a2, 353⟩,
   ⟨112, 255, a32, 273⟩]

/-- `sip/msg_parse.go:11247` (`st_case_353`). -/
def s353 : List Row :=
  [⟨0, 8, a32, 273⟩,
   ⟨9, 9, a50, 283⟩,
   ⟨10, 31, a32, 273⟩,
   ⟨32, 32, a50, 283⟩,
   ⟨33, 57, a32, 273⟩,
   ⟨58, 58, a50, 284⟩,
   ⟨59, 255, a32, 273⟩]

/-- `sip/msg_parse.go:11261` (`st_case_354`). -/
def s354 : List Row :=
  [⟨0, 81, a32, 273⟩,
   ⟨82, 82, a2, 355⟩,
   ⟨83, 113, a32, 273⟩,
   ⟨114, 114, a2, 355⟩,
   ⟨115, 255, a32, 273⟩]

/-- `sip/msg_parse.go:11273` (`st_case_355`). -/
def s355 : List Row :=
  [⟨0, 72, a32, 273⟩,
   ⟨73, 73, a2, 356⟩,
   ⟨74, 104, a32, 273⟩,
   ⟨105, 105, a2, 356⟩,
   ⟨106, 255, a32, 273⟩]

/-- `sip/msg_parse.go:11285` (`st_case_356`). -/
def s356 : List Row :=
  [⟨0, 89, a32, 273⟩,
   ⟨90, 90, a2, 357⟩,
   ⟨91, 121, a32, 273⟩,
   ⟨122, 122, a2, 357⟩,
   ⟨123, 255, a32, 273⟩]

/-- `sip/msg_parse.go:11297` (`st_case_357`). -/
def s357 : List Row :=
  [⟨0, 64, a32, 273⟩,
   ⟨65, 65, a2, 358⟩,
   ⟨66, 96, a32, 273⟩,
   ⟨97, 97, a2, 358⟩,
   ⟨98, 255, a32, 273⟩]

/-- `sip/msg_parse.go:11309` (`st_case_358`). -/
def s358 : List Row :=
  [⟨0, 83, a32, 273⟩,
   ⟨84, 84, a2, 359⟩,
   ⟨85, 115, a32, 273⟩,
   ⟨116, 116, a2, 359⟩,
   ⟨117, 255, a32, 273⟩]

/-- `sip/msg_parse.go:11321` (`st_case_359`). -/
def s359 : List Row :=
  [⟨0, 72, a32, 273⟩,
   ⟨73, 73, a2, 360⟩,
   ⟨74, 104, a32, 273⟩,
   ⟨105, 105, a2, 360⟩,
   ⟨106, 255, a32, 273⟩]

/-- `sip/msg_parse.go:11333` (`st_case_360`). -/
def s360 : List Row :=
  [⟨0, 78, a32, 273⟩,
   ⟨79, 79, a2, 361⟩,
   ⟨80, 110, a32, 273⟩,
   ⟨111, 111, a2, 361⟩,
   ⟨112, 255, a32, 273⟩]

/-- `sip/msg_parse.go:11345` (`st_case_361`). -/
def s361 : List Row :=
  [⟨0, 77, a32, 273⟩,
   ⟨78, 78, a2, 362⟩,
   ⟨79, 109, a32, 273⟩,
   ⟨110, 110, a2, 362⟩,
   ⟨111, 255, a32, 273⟩]

/-- `sip/msg_parse.go:11357` (`st_case_362`). -/
def s362 : List Row :=
  [⟨0, 8, a32, 273⟩,
   ⟨9, 9, a51, 283⟩,
   ⟨10, 31, a32, 273⟩,
   ⟨32, 32, a51, 283⟩,
   ⟨33, 57, a32, 273⟩,
   ⟨58, 58, a51, 284⟩,
   ⟨59, 255, a32, 273⟩]

/-- `sip/msg_parse.go:11371` (`st_case_363`). -/
def s363 : List Row :=
  [⟨0, 8, a32, 273⟩,
   ⟨9, 9, a52, 283⟩,
   ⟨10, 31, a32, 273⟩,
   ⟨32, 32, a52, 283⟩,
   ⟨33, 57, a32, 273⟩,
   ⟨58, 58, a52, 284⟩,
   ⟨59, 255, a32, 273⟩]

/-- `sip/msg_parse.go:11385` (`st_case_364`). -/
def s364 : List Row :=
  [⟨0, 8, a32, 273⟩,
   ⟨9, 9, a2, 365⟩,
   ⟨10, 31, a32, 273⟩,
   ⟨32, 32, a2, 365⟩,
   ⟨33, 57, a32, 273⟩,
   ⟨58, 58, a2, 366⟩,
   ⟨59, 64, a32, 273⟩,
   ⟨65, 65, a2, 370⟩,
   ⟨66, 78, a32, 273⟩,
   ⟨79, 79, a2, 388⟩,
   ⟨80, 82, a32, 273⟩,
   ⟨83, 83, a2, 445⟩,
   ⟨84, 96, a32, 273⟩,
   ⟨97, 97, a2, 370⟩,
   ⟨98, 110, a32, 273⟩,
   ⟨111, 111, a2, 388⟩,
   ⟨112, 114, a32, 273⟩,
   ⟨115, 115, a2, 445⟩,
   ⟨116, 255, a32, 273⟩]

/-- `sip/msg_parse.go:11411` (`st_case_365`). -/
def s365 : List Row :=
  [⟨9, 9, a2, 365⟩,
   ⟨32, 32, a2, 365⟩,
   ⟨58, 58, a2, 366⟩]

/-- `sip/msg_parse.go:11425` (`st_case_366`). -/
def s366 : List Row :=
  [⟨0, 8, a32, 34⟩,
   ⟨9, 9, a2, 366⟩,
   ⟨10, 12, a32, 34⟩,
   ⟨14, 31, a32, 34⟩,
   ⟨32, 32, a2, 366⟩,
   ⟨33, 255, a32, 34⟩,
   ⟨269, 269, a32, 34⟩,
   ⟨525, 525, a2, 367⟩]

/-- `sip/msg_parse.go:11456` (`st_case_367`). -/
def s367 : List Row :=
  [⟨10, 10, a2, 368⟩]

/-- `sip/msg_parse.go:11465` (`st_case_368`). -/
def s368 : List Row :=
  [⟨9, 9, a2, 369⟩,
   ⟨32, 32, a2, 369⟩]

/-- `sip/msg_parse.go:11477` (`st_case_369`). -/
def s369 : List Row :=
  [⟨0, 8, a32, 34⟩,
   ⟨9, 9, a2, 369⟩,
   ⟨10, 31, a32, 34⟩,
   ⟨32, 32, a2, 369⟩,
   ⟨33, 255, a32, 34⟩]

/-- `sip/msg_parse.go:11489` (`st_case_370`). -/
def s370 : List Row :=
  [⟨0, 75, a32, 273⟩,
   ⟨76, 76, a2, 371⟩,
   ⟨77, 107, a32, 273⟩,
   ⟨108, 108, a2, 371⟩,
   ⟨109, 255, a32, 273⟩]

/-- `sip/msg_parse.go:11501` (`st_case_371`). -/
def s371 : List Row :=
  [⟨0, 75, a32, 273⟩,
   ⟨76, 76, a2, 372⟩,
   ⟨77, 107, a32, 273⟩,
   ⟨108, 108, a2, 372⟩,
   ⟨109, 255, a32, 273⟩]

/-- `sip/msg_parse.go:11513` (`st_case_372`). -/
def s372 : List Row :=
  [⟨0, 44, a32, 273⟩,
   ⟨45, 45, a2, 373⟩,
   ⟨46, 255, a32, 273⟩]

/-- `sip/msg_parse.go:11522` (`st_case_373`). -/
def s373 : List Row :=
  [⟨0, 72, a32, 273⟩,
   ⟨73, 73, a2, 374⟩,
   ⟨74, 104, a32, 273⟩,
   ⟨105, 105, a2, 374⟩,
   ⟨106, 255, a32, 273⟩]

/-- `sip/msg_parse.go:11534` (`st_case_374`). -/
def s374 : List Row :=
  [⟨0, 67, a32, 273⟩,
   ⟨68, 68, a2, 375⟩,
   ⟨69, 77, a32, 273⟩,
   ⟨78, 78, a2, 385⟩,
   ⟨79, 99, a32, 273⟩,
   ⟨100, 100, a2, 375⟩,
   ⟨101, 109, a32, 273⟩,
   ⟨110, 110, a2, 385⟩,
   ⟨111, 255, a32, 273⟩]

/-- `sip/msg_parse.go:11550` (`st_case_375`). -/
def s375 : List Row :=
  [⟨0, 8, a32, 273⟩,
   ⟨9, 9, a2, 376⟩,
   ⟨10, 31, a32, 273⟩,
   ⟨32, 32, a2, 376⟩,
   ⟨33, 57, a32, 273⟩,
   ⟨58, 58, a2, 377⟩,
   ⟨59, 255, a32, 273⟩]

/-- `sip/msg_parse.go:11564` (`st_case_376`). -/
def s376 : List Row :=
  [⟨9, 9, a2, 376⟩,
   ⟨32, 32, a2, 376⟩,
   ⟨58, 58, a2, 377⟩]

/-- `sip/msg_parse.go:11578` (`st_case_377`). -/
def s377 : List Row :=
  [⟨9, 9, a2, 377⟩,
   ⟨32, 32, a2, 377⟩,
   ⟨33, 34, a0, 378⟩,
   ⟨37, 37, a0, 378⟩,
   ⟨39, 43, a0, 378⟩,
   ⟨45, 58, a0, 378⟩,
   ⟨60, 60, a0, 378⟩,
   ⟨62, 63, a0, 378⟩,
   ⟨65, 93, a0, 378⟩,
   ⟨95, 123, a0, 378⟩,
   ⟨125, 126, a0, 378⟩,
   ⟨525, 525, a2, 382⟩]

/-- `sip/msg_parse.go:11639` (`st_case_378`). -/
def s378 : List Row :=
  [⟨33, 34, a2, 378⟩,
   ⟨37, 37, a2, 378⟩,
   ⟨39, 43, a2, 378⟩,
   ⟨45, 58, a2, 378⟩,
   ⟨60, 60, a2, 378⟩,
   ⟨62, 63, a2, 378⟩,
   ⟨64, 64, a2, 379⟩,
   ⟨65, 93, a2, 378⟩,
   ⟨95, 123, a2, 378⟩,
   ⟨125, 126, a2, 378⟩,
   ⟨269, 269, a53, 381⟩]

/-- `sip/msg_parse.go:11689` (`st_case_379`). -/
def s379 : List Row :=
  [⟨33, 34, a2, 380⟩,
   ⟨37, 37, a2, 380⟩,
   ⟨39, 43, a2, 380⟩,
   ⟨45, 58, a2, 380⟩,
   ⟨60, 60, a2, 380⟩,
   ⟨62, 63, a2, 380⟩,
   ⟨65, 93, a2, 380⟩,
   ⟨95, 123, a2, 380⟩,
   ⟨125, 126, a2, 380⟩]

/-- `sip/msg_parse.go:11731` (`st_case_380`). -/
def s380 : List Row :=
  [⟨33, 34, a2, 380⟩,
   ⟨37, 37, a2, 380⟩,
   ⟨39, 43, a2, 380⟩,
   ⟨45, 58, a2, 380⟩,
   ⟨60, 60, a2, 380⟩,
   ⟨62, 63, a2, 380⟩,
   ⟨65, 93, a2, 380⟩,
   ⟨95, 123, a2, 380⟩,
   ⟨125, 126, a2, 380⟩,
   ⟨269, 269, a53, 381⟩]

/-- `sip/msg_parse.go:11794` (`st_case_381`). -/
def s381 : List Row :=
  [⟨10, 10, a2, 280⟩]

/-- `sip/msg_parse.go:11804` (`st_case_382`). -/
def s382 : List Row :=
  [⟨10, 10, a2, 383⟩]

/-- `sip/msg_parse.go:11813` (`st_case_383`). -/
def s383 : List Row :=
  [⟨9, 9, a2, 384⟩,
   ⟨32, 32, a2, 384⟩]

/-- `sip/msg_parse.go:11825` (`st_case_384`). -/
def s384 : List Row :=
  [⟨9, 9, a2, 384⟩,
   ⟨32, 32, a2, 384⟩,
   ⟨33, 34, a0, 378⟩,
   ⟨37, 37, a0, 378⟩,
   ⟨39, 43, a0, 378⟩,
   ⟨45, 58, a0, 378⟩,
   ⟨60, 60, a0, 378⟩,
   ⟨62, 63, a0, 378⟩,
   ⟨65, 93, a0, 378⟩,
   ⟨95, 123, a0, 378⟩,
   ⟨125, 126, a0, 378⟩]

/-- `sip/msg_parse.go:11871` (`st_case_385`). -/
def s385 : List Row :=
  [⟨0, 69, a32, 273⟩,
   ⟨70, 70, a2, 386⟩,
   ⟨71, 101, a32, 273⟩,
   ⟨102, 102, a2, 386⟩,
   ⟨103, 255, a32, 273⟩]

/-- `sip/msg_parse.go:11883` (`st_case_386`). -/
def s386 : List Row :=
  [⟨0, 78, a32, 273⟩,
   ⟨79, 79, a2, 387⟩,
   ⟨80, 110, a32, 273⟩,
   ⟨111, 111, a2, 387⟩,
   ⟨112, 255, a32, 273⟩]

/-- `sip/msg_parse.go:11895` (`st_case_387`). -/
def s387 : List Row :=
  [⟨0, 8, a32, 273⟩,
   ⟨9, 9, a54, 283⟩,
   ⟨10, 31, a32, 273⟩,
   ⟨32, 32, a54, 283⟩,
   ⟨33, 57, a32, 273⟩,
   ⟨58, 58, a54, 284⟩,
   ⟨59, 255, a32, 273⟩]

/-- `sip/msg_parse.go:11909` (`st_case_388`). -/
def s388 : List Row :=
  [⟨0, 77, a32, 273⟩,
   ⟨78, 78, a2, 389⟩,
   ⟨79, 109, a32, 273⟩,
   ⟨110, 110, a2, 389⟩,
   ⟨111, 255, a32, 273⟩]

/-- `sip/msg_parse.go:11921` (`st_case_389`). -/
def s389 : List Row :=
  [⟨0, 83, a32, 273⟩,
   ⟨84, 84, a2, 390⟩,
   ⟨85, 115, a32, 273⟩,
   ⟨116, 116, a2, 390⟩,
   ⟨117, 255, a32, 273⟩]

/-- `sip/msg_parse.go:11933` (`st_case_390`). -/
def s390 : List Row :=
  [⟨0, 64, a32, 273⟩,
   ⟨65, 65, a2, 391⟩,
   ⟨66, 68, a32, 273⟩,
   ⟨69, 69, a2, 399⟩,
   ⟨70, 96, a32, 273⟩,
   ⟨97, 97, a2, 391⟩,
   ⟨98, 100, a32, 273⟩,
   ⟨101, 101, a2, 399⟩,
   ⟨102, 255, a32, 273⟩]

/-- `sip/msg_parse.go:11949` (`st_case_391`). -/
def s391 : List Row :=
  [⟨0, 66, a32, 273⟩,
   ⟨67, 67, a2, 392⟩,
   ⟨68, 98, a32, 273⟩,
   ⟨99, 99, a2, 392⟩,
   ⟨100, 255, a32, 273⟩]

/-- `sip/msg_parse.go:11961` (`st_case_392`). -/
def s392 : List Row :=
  [⟨0, 83, a32, 273⟩,
   ⟨84, 84, a2, 393⟩,
   ⟨85, 115, a32, 273⟩,
   ⟨116, 116, a2, 393⟩,
   ⟨117, 255, a32, 273⟩]

/-- `sip/msg_parse.go:11973` (`st_case_393`). -/
def s393 : List Row :=
  [⟨0, 8, a32, 273⟩,
   ⟨9, 9, a55, 394⟩,
   ⟨10, 31, a32, 273⟩,
   ⟨32, 32, a55, 394⟩,
   ⟨33, 57, a32, 273⟩,
   ⟨58, 58, a55, 395⟩,
   ⟨59, 255, a32, 273⟩]

/-- `sip/msg_parse.go:12015` (`st_case_394`). -/
def s394 : List Row :=
  [⟨9, 9, a2, 394⟩,
   ⟨32, 32, a2, 394⟩,
   ⟨58, 58, a2, 395⟩]

/-- `sip/msg_parse.go:12058` (`st_case_395`). -/
def s395 : List Row :=
  [⟨0, 8, a41, 256⟩,
   ⟨9, 9, a2, 395⟩,
   ⟨10, 12, a41, 256⟩,
   ⟨14, 31, a41, 256⟩,
   ⟨32, 32, a2, 395⟩,
   ⟨33, 255, a41, 256⟩,
   ⟨269, 269, a41, 256⟩,
   ⟨525, 525, a2, 396⟩]

/-- `sip/msg_parse.go:12090` (`st_case_396`). -/
def s396 : List Row :=
  [⟨10, 10, a2, 397⟩]

/-- `sip/msg_parse.go:12099` (`st_case_397`). -/
def s397 : List Row :=
  [⟨9, 9, a2, 398⟩,
   ⟨32, 32, a2, 398⟩]

/-- `sip/msg_parse.go:12111` (`st_case_398`). -/
def s398 : List Row :=
  [⟨0, 8, a41, 256⟩,
   ⟨9, 9, a2, 398⟩,
   ⟨10, 31, a41, 256⟩,
   ⟨32, 32, a2, 398⟩,
   ⟨33, 255, a41, 256⟩]

/-- `sip/msg_parse.go:12123` (`st_case_399`). -/
def s399 : List Row :=
  [⟨0, 77, a32, 273⟩,
   ⟨78, 78, a2, 400⟩,
   ⟨79, 109, a32, 273⟩,
   ⟨110, 110, a2, 400⟩,
   ⟨111, 255, a32, 273⟩]

/-- `sip/msg_parse.go:12135` (`st_case_400`). -/
def s400 : List Row :=
  [⟨0, 83, a32, 273⟩,
   ⟨84, 84, a2, 401⟩,
   ⟨85, 115, a32, 273⟩,
   ⟨116, 116, a2, 401⟩,
   ⟨117, 255, a32, 273⟩]

/-- `sip/msg_parse.go:12147` (`st_case_401`). -/
def s401 : List Row :=
  [⟨0, 44, a32, 273⟩,
   ⟨45, 45, a2, 402⟩,
   ⟨46, 255, a32, 273⟩]

/-- `sip/msg_parse.go:12156` (`st_case_402`). -/
def s402 : List Row :=
  [⟨0, 67, a32, 273⟩,
   ⟨68, 68, a2, 403⟩,
   ⟨69, 69, a2, 414⟩,
   ⟨70, 75, a32, 273⟩,
   ⟨76, 76, a2, 422⟩,
   ⟨77, 83, a32, 273⟩,
   ⟨84, 84, a2, 441⟩,
   ⟨85, 99, a32, 273⟩,
   ⟨100, 100, a2, 403⟩,
   ⟨101, 101, a2, 414⟩,
   ⟨102, 107, a32, 273⟩,
   ⟨108, 108, a2, 422⟩,
   ⟨109, 115, a32, 273⟩,
   ⟨116, 116, a2, 441⟩,
   ⟨117, 255, a32, 273⟩]

/-- `sip/msg_parse.go:12180` (`st_case_403`). -/
def s403 : List Row :=
  [⟨0, 72, a32, 273⟩,
   ⟨73, 73, a2, 404⟩,
   ⟨74, 104, a32, 273⟩,
   ⟨105, 105, a2, 404⟩,
   ⟨106, 255, a32, 273⟩]

/-- `sip/msg_parse.go:12192` (`st_case_404`). -/
def s404 : List Row :=
  [⟨0, 82, a32, 273⟩,
   ⟨83, 83, a2, 405⟩,
   ⟨84, 114, a32, 273⟩,
   ⟨115, 115, a2, 405⟩,
   ⟨116, 255, a32, 273⟩]

/-- `sip/msg_parse.go:12204` (`st_case_405`). -/
def s405 : List Row :=
  [⟨0, 79, a32, 273⟩,
   ⟨80, 80, a2, 406⟩,
   ⟨81, 111, a32, 273⟩,
   ⟨112, 112, a2, 406⟩,
   ⟨113, 255, a32, 273⟩]

/-- `sip/msg_parse.go:12216` (`st_case_406`). -/
def s406 : List Row :=
  [⟨0, 78, a32, 273⟩,
   ⟨79, 79, a2, 407⟩,
   ⟨80, 110, a32, 273⟩,
   ⟨111, 111, a2, 407⟩,
   ⟨112, 255, a32, 273⟩]

/-- `sip/msg_parse.go:12228` (`st_case_407`). -/
def s407 : List Row :=
  [⟨0, 82, a32, 273⟩,
   ⟨83, 83, a2, 408⟩,
   ⟨84, 114, a32, 273⟩,
   ⟨115, 115, a2, 408⟩,
   ⟨116, 255, a32, 273⟩]

/-- `sip/msg_parse.go:12240` (`st_case_408`). -/
def s408 : List Row :=
  [⟨0, 72, a32, 273⟩,
   ⟨73, 73, a2, 409⟩,
   ⟨74, 104, a32, 273⟩,
   ⟨105, 105, a2, 409⟩,
   ⟨106, 255, a32, 273⟩]

/-- `sip/msg_parse.go:12252` (`st_case_409`). -/
def s409 : List Row :=
  [⟨0, 83, a32, 273⟩,
   ⟨84, 84, a2, 410⟩,
   ⟨85, 115, a32, 273⟩,
   ⟨116, 116, a2, 410⟩,
   ⟨117, 255, a32, 273⟩]

/-- `sip/msg_parse.go:12264` (`st_case_410`). -/
def s410 : List Row :=
  [⟨0, 72, a32, 273⟩,
   ⟨73, 73, a2, 411⟩,
   ⟨74, 104, a32, 273⟩,
   ⟨105, 105, a2, 411⟩,
   ⟨106, 255, a32, 273⟩]

/-- `sip/msg_parse.go:12276` (`st_case_411`). -/
def s411 : List Row :=
  [⟨0, 78, a32, 273⟩,
   ⟨79, 79, a2, 412⟩,
   ⟨80, 110, a32, 273⟩,
   ⟨111, 111, a2, 412⟩,
   ⟨112, 255, a32, 273⟩]

/-- `sip/msg_parse.go:12288` (`st_case_412`). -/
def s412 : List Row :=
  [⟨0, 77, a32, 273⟩,
   ⟨78, 78, a2, 413⟩,
   ⟨79, 109, a32, 273⟩,
   ⟨110, 110, a2, 413⟩,
   ⟨111, 255, a32, 273⟩]

/-- `sip/msg_parse.go:12300` (`st_case_413`). -/
def s413 : List Row :=
  [⟨0, 8, a32, 273⟩,
   ⟨9, 9, a56, 283⟩,
   ⟨10, 31, a32, 273⟩,
   ⟨32, 32, a56, 283⟩,
   ⟨33, 57, a32, 273⟩,
   ⟨58, 58, a56, 284⟩,
   ⟨59, 255, a32, 273⟩]

/-- `sip/msg_parse.go:12314` (`st_case_414`). -/
def s414 : List Row :=
  [⟨0, 77, a32, 273⟩,
   ⟨78, 78, a2, 415⟩,
   ⟨79, 109, a32, 273⟩,
   ⟨110, 110, a2, 415⟩,
   ⟨111, 255, a32, 273⟩]

/-- `sip/msg_parse.go:12326` (`st_case_415`). -/
def s415 : List Row :=
  [⟨0, 66, a32, 273⟩,
   ⟨67, 67, a2, 416⟩,
   ⟨68, 98, a32, 273⟩,
   ⟨99, 99, a2, 416⟩,
   ⟨100, 255, a32, 273⟩]

/-- `sip/msg_parse.go:12338` (`st_case_416`). -/
def s416 : List Row :=
  [⟨0, 78, a32, 273⟩,
   ⟨79, 79, a2, 417⟩,
   ⟨80, 110, a32, 273⟩,
   ⟨111, 111, a2, 417⟩,
   ⟨112, 255, a32, 273⟩]

/-- `sip/msg_parse.go:12350` (`st_case_417`). -/
def s417 : List Row :=
  [⟨0, 67, a32, 273⟩,
   ⟨68, 68, a2, 418⟩,
   ⟨69, 99, a32, 273⟩,
   ⟨100, 100, a2, 418⟩,
   ⟨101, 255, a32, 273⟩]

/-- `sip/msg_parse.go:12362` (`st_case_418`). -/
def s418 : List Row :=
  [⟨0, 72, a32, 273⟩,
   ⟨73, 73, a2, 419⟩,
   ⟨74, 104, a32, 273⟩,
   ⟨105, 105, a2, 419⟩,
   ⟨106, 255, a32, 273⟩]

/-- `sip/msg_parse.go:12374` (`st_case_419`). -/
def s419 : List Row :=
  [⟨0, 77, a32, 273⟩,
   ⟨78, 78, a2, 420⟩,
   ⟨79, 109, a32, 273⟩,
   ⟨110, 110, a2, 420⟩,
   ⟨111, 255, a32, 273⟩]

/-- `sip/msg_parse.go:12386` (`st_case_420`). -/
def s420 : List Row :=
  [⟨0, 70, a32, 273⟩,
   ⟨71, 71, a2, 421⟩,
   ⟨72, 102, a32, 273⟩,
   ⟨103, 103, a2, 421⟩,
   ⟨104, 255, a32, 273⟩]

/-- `sip/msg_parse.go:12398` (`st_case_421`). -/
def s421 : List Row :=
  [⟨0, 8, a32, 273⟩,
   ⟨9, 9, a57, 283⟩,
   ⟨10, 31, a32, 273⟩,
   ⟨32, 32, a57, 283⟩,
   ⟨33, 57, a32, 273⟩,
   ⟨58, 58, a57, 284⟩,
   ⟨59, 255, a32, 273⟩]

/-- `sip/msg_parse.go:12412` (`st_case_422`). -/
def s422 : List Row :=
  [⟨0, 64, a32, 273⟩,
   ⟨65, 65, a2, 423⟩,
   ⟨66, 68, a32, 273⟩,
   ⟨69, 69, a2, 430⟩,
   ⟨70, 96, a32, 273⟩,
   ⟨97, 97, a2, 423⟩,
   ⟨98, 100, a32, 273⟩,
   ⟨101, 101, a2, 430⟩,
   ⟨102, 255, a32, 273⟩]

/-- `sip/msg_parse.go:12428` (`st_case_423`). -/
def s423 : List Row :=
  [⟨0, 77, a32, 273⟩,
   ⟨78, 78, a2, 424⟩,
   ⟨79, 109, a32, 273⟩,
   ⟨110, 110, a2, 424⟩,
   ⟨111, 255, a32, 273⟩]

/-- `sip/msg_parse.go:12440` (`st_case_424`). -/
def s424 : List Row :=
  [⟨0, 70, a32, 273⟩,
   ⟨71, 71, a2, 425⟩,
   ⟨72, 102, a32, 273⟩,
   ⟨103, 103, a2, 425⟩,
   ⟨104, 255, a32, 273⟩]

/-- `sip/msg_parse.go:12452` (`st_case_425`). -/
def s425 : List Row :=
  [⟨0, 84, a32, 273⟩,
   ⟨85, 85, a2, 426⟩,
   ⟨86, 116, a32, 273⟩,
   ⟨117, 117, a2, 426⟩,
   ⟨118, 255, a32, 273⟩]

/-- `sip/msg_parse.go:12464` (`st_case_426`). -/
def s426 : List Row :=
  [⟨0, 64, a32, 273⟩,
   ⟨65, 65, a2, 427⟩,
   ⟨66, 96, a32, 273⟩,
   ⟨97, 97, a2, 427⟩,
   ⟨98, 255, a32, 273⟩]

/-- `sip/msg_parse.go:12476` (`st_case_427`). -/
def s427 : List Row :=
  [⟨0, 70, a32, 273⟩,
   ⟨71, 71, a2, 428⟩,
   ⟨72, 102, a32, 273⟩,
   ⟨103, 103, a2, 428⟩,
   ⟨104, 255, a32, 273⟩]

/-- `sip/msg_parse.go:12488` (`st_case_428`). -/
def s428 : List Row :=
  [⟨0, 68, a32, 273⟩,
   ⟨69, 69, a2, 429⟩,
   ⟨70, 100, a32, 273⟩,
   ⟨101, 101, a2, 429⟩,
   ⟨102, 255, a32, 273⟩]

/-- `sip/msg_parse.go:12500` (`st_case_429`). -/
def s429 : List Row :=
  [⟨0, 8, a32, 273⟩,
   ⟨9, 9, a58, 283⟩,
   ⟨10, 31, a32, 273⟩,
   ⟨32, 32, a58, 283⟩,
   ⟨33, 57, a32, 273⟩,
   ⟨58, 58, a58, 284⟩,
   ⟨59, 255, a32, 273⟩]

/-- `sip/msg_parse.go:12514` (`st_case_430`). -/
def s430 : List Row :=
  [⟨0, 77, a32, 273⟩,
   ⟨78, 78, a2, 431⟩,
   ⟨79, 109, a32, 273⟩,
   ⟨110, 110, a2, 431⟩,
   ⟨111, 255, a32, 273⟩]

/-- `sip/msg_parse.go:12526` (`st_case_431`). -/
def s431 : List Row :=
  [⟨0, 70, a32, 273⟩,
   ⟨71, 71, a2, 432⟩,
   ⟨72, 102, a32, 273⟩,
   ⟨103, 103, a2, 432⟩,
   ⟨104, 255, a32, 273⟩]

/-- `sip/msg_parse.go:12538` (`st_case_432`). -/
def s432 : List Row :=
  [⟨0, 83, a32, 273⟩,
   ⟨84, 84, a2, 433⟩,
   ⟨85, 115, a32, 273⟩,
   ⟨116, 116, a2, 433⟩,
   ⟨117, 255, a32, 273⟩]

/-- `sip/msg_parse.go:12550` (`st_case_433`). -/
def s433 : List Row :=
  [⟨0, 71, a32, 273⟩,
   ⟨72, 72, a2, 434⟩,
   ⟨73, 103, a32, 273⟩,
   ⟨104, 104, a2, 434⟩,
   ⟨105, 255, a32, 273⟩]

/-- `sip/msg_parse.go:12562` (`st_case_434`). -/
def s434 : List Row :=
  [⟨0, 8, a32, 273⟩,
   ⟨9, 9, a2, 435⟩,
   ⟨10, 31, a32, 273⟩,
   ⟨32, 32, a2, 435⟩,
   ⟨33, 57, a32, 273⟩,
   ⟨58, 58, a2, 436⟩,
   ⟨59, 255, a32, 273⟩]

/-- `sip/msg_parse.go:12576` (`st_case_435`). -/
def s435 : List Row :=
  [⟨9, 9, a2, 435⟩,
   ⟨32, 32, a2, 435⟩,
   ⟨58, 58, a2, 436⟩]

/-- `sip/msg_parse.go:12590` (`st_case_436`). -/
def s436 : List Row :=
  [⟨9, 9, a2, 436⟩,
   ⟨32, 32, a2, 436⟩,
   ⟨48, 57, a59, 437⟩,
   ⟨525, 525, a2, 438⟩]

/-- `sip/msg_parse.go:12628` (`st_case_437`). -/
def s437 : List Row :=
  [⟨48, 57, a60, 437⟩,
   ⟨269, 269, a2, 381⟩]

/-- `sip/msg_parse.go:12648` (`st_case_438`). -/
def s438 : List Row :=
  [⟨10, 10, a2, 439⟩]

/-- `sip/msg_parse.go:12657` (`st_case_439`). -/
def s439 : List Row :=
  [⟨9, 9, a2, 440⟩,
   ⟨32, 32, a2, 440⟩]

/-- `sip/msg_parse.go:12669` (`st_case_440`). -/
def s440 : List Row :=
  [⟨9, 9, a2, 440⟩,
   ⟨32, 32, a2, 440⟩,
   ⟨48, 57, a59, 437⟩]

/-- `sip/msg_parse.go:12684` (`st_case_441`). -/
def s441 : List Row :=
  [⟨0, 88, a32, 273⟩,
   ⟨89, 89, a2, 442⟩,
   ⟨90, 120, a32, 273⟩,
   ⟨121, 121, a2, 442⟩,
   ⟨122, 255, a32, 273⟩]

/-- `sip/msg_parse.go:12696` (`st_case_442`). -/
def s442 : List Row :=
  [⟨0, 79, a32, 273⟩,
   ⟨80, 80, a2, 443⟩,
   ⟨81, 111, a32, 273⟩,
   ⟨112, 112, a2, 443⟩,
   ⟨113, 255, a32, 273⟩]

/-- `sip/msg_parse.go:12708` (`st_case_443`). -/
def s443 : List Row :=
  [⟨0, 68, a32, 273⟩,
   ⟨69, 69, a2, 444⟩,
   ⟨70, 100, a32, 273⟩,
   ⟨101, 101, a2, 444⟩,
   ⟨102, 255, a32, 273⟩]

/-- `sip/msg_parse.go:12720` (`st_case_444`). -/
def s444 : List Row :=
  [⟨0, 8, a32, 273⟩,
   ⟨9, 9, a2, 365⟩,
   ⟨10, 31, a32, 273⟩,
   ⟨32, 32, a2, 365⟩,
   ⟨33, 57, a32, 273⟩,
   ⟨58, 58, a2, 366⟩,
   ⟨59, 255, a32, 273⟩]

/-- `sip/msg_parse.go:12734` (`st_case_445`). -/
def s445 : List Row :=
  [⟨0, 68, a32, 273⟩,
   ⟨69, 69, a2, 446⟩,
   ⟨70, 100, a32, 273⟩,
   ⟨101, 101, a2, 446⟩,
   ⟨102, 255, a32, 273⟩]

/-- `sip/msg_parse.go:12746` (`st_case_446`). -/
def s446 : List Row :=
  [⟨0, 80, a32, 273⟩,
   ⟨81, 81, a2, 447⟩,
   ⟨82, 112, a32, 273⟩,
   ⟨113, 113, a2, 447⟩,
   ⟨114, 255, a32, 273⟩]

/-- `sip/msg_parse.go:12758` (`st_case_447`). -/
def s447 : List Row :=
  [⟨0, 8, a32, 273⟩,
   ⟨9, 9, a2, 448⟩,
   ⟨10, 31, a32, 273⟩,
   ⟨32, 32, a2, 448⟩,
   ⟨33, 57, a32, 273⟩,
   ⟨58, 58, a2, 449⟩,
   ⟨59, 255, a32, 273⟩]

/-- `sip/msg_parse.go:12772` (`st_case_448`). -/
def s448 : List Row :=
  [⟨9, 9, a2, 448⟩,
   ⟨32, 32, a2, 448⟩,
   ⟨58, 58, a2, 449⟩]

/-- `sip/msg_parse.go:12786` (`st_case_449`). -/
def s449 : List Row :=
  [⟨9, 9, a2, 449⟩,
   ⟨32, 32, a2, 449⟩,
   ⟨48, 57, a61, 450⟩,
   ⟨525, 525, a2, 456⟩]

/-- `sip/msg_parse.go:12816` (`st_case_450`). -/
def s450 : List Row :=
  [⟨9, 9, a2, 451⟩,
   ⟨32, 32, a2, 451⟩,
   ⟨48, 57, a61, 450⟩,
   ⟨525, 525, a2, 453⟩]

/-- `sip/msg_parse.go:12841` (`st_case_451`). -/
def s451 : List Row :=
  [⟨9, 9, a2, 451⟩,
   ⟨32, 32, a2, 451⟩,
   ⟨33, 33, a0, 452⟩,
   ⟨37, 37, a0, 452⟩,
   ⟨39, 39, a0, 452⟩,
   ⟨42, 43, a0, 452⟩,
   ⟨45, 46, a0, 452⟩,
   ⟨48, 57, a0, 452⟩,
   ⟨65, 90, a0, 452⟩,
   ⟨95, 122, a0, 452⟩,
   ⟨126, 126, a0, 452⟩,
   ⟨525, 525, a2, 453⟩]

/-- `sip/msg_parse.go:12898` (`st_case_452`). -/
def s452 : List Row :=
  [⟨33, 33, a2, 452⟩,
   ⟨37, 37, a2, 452⟩,
   ⟨39, 39, a2, 452⟩,
   ⟨42, 43, a2, 452⟩,
   ⟨45, 46, a2, 452⟩,
   ⟨48, 57, a2, 452⟩,
   ⟨65, 90, a2, 452⟩,
   ⟨95, 122, a2, 452⟩,
   ⟨126, 126, a2, 452⟩,
   ⟨269, 269, a62, 381⟩]

/-- `sip/msg_parse.go:12946` (`st_case_453`). -/
def s453 : List Row :=
  [⟨10, 10, a2, 454⟩]

/-- `sip/msg_parse.go:12955` (`st_case_454`). -/
def s454 : List Row :=
  [⟨9, 9, a2, 455⟩,
   ⟨32, 32, a2, 455⟩]

/-- `sip/msg_parse.go:12967` (`st_case_455`). -/
def s455 : List Row :=
  [⟨9, 9, a2, 455⟩,
   ⟨32, 32, a2, 455⟩,
   ⟨33, 33, a0, 452⟩,
   ⟨37, 37, a0, 452⟩,
   ⟨39, 39, a0, 452⟩,
   ⟨42, 43, a0, 452⟩,
   ⟨45, 46, a0, 452⟩,
   ⟨48, 57, a0, 452⟩,
   ⟨65, 90, a0, 452⟩,
   ⟨95, 122, a0, 452⟩,
   ⟨126, 126, a0, 452⟩]

/-- `sip/msg_parse.go:13009` (`st_case_456`). -/
def s456 : List Row :=
  [⟨10, 10, a2, 457⟩]

/-- `sip/msg_parse.go:13018` (`st_case_457`). -/
def s457 : List Row :=
  [⟨9, 9, a2, 458⟩,
   ⟨32, 32, a2, 458⟩]

/-- `sip/msg_parse.go:13030` (`st_case_458`). -/
def s458 : List Row :=
  [⟨9, 9, a2, 458⟩,
   ⟨32, 32, a2, 458⟩,
   ⟨48, 57, a61, 450⟩]

/-- `sip/msg_parse.go:13045` (`st_case_459`). -/
def s459 : List Row :=
  [⟨0, 64, a32, 273⟩,
   ⟨65, 65, a2, 460⟩,
   ⟨66, 96, a32, 273⟩,
   ⟨97, 97, a2, 460⟩,
   ⟨98, 255, a32, 273⟩]

/-- `sip/msg_parse.go:13057` (`st_case_460`). -/
def s460 : List Row :=
  [⟨0, 83, a32, 273⟩,
   ⟨84, 84, a2, 461⟩,
   ⟨85, 115, a32, 273⟩,
   ⟨116, 116, a2, 461⟩,
   ⟨117, 255, a32, 273⟩]

/-- `sip/msg_parse.go:13069` (`st_case_461`). -/
def s461 : List Row :=
  [⟨0, 68, a32, 273⟩,
   ⟨69, 69, a2, 462⟩,
   ⟨70, 100, a32, 273⟩,
   ⟨101, 101, a2, 462⟩,
   ⟨102, 255, a32, 273⟩]

/-- `sip/msg_parse.go:13081` (`st_case_462`). -/
def s462 : List Row :=
  [⟨0, 8, a32, 273⟩,
   ⟨9, 9, a63, 283⟩,
   ⟨10, 31, a32, 273⟩,
   ⟨32, 32, a63, 283⟩,
   ⟨33, 57, a32, 273⟩,
   ⟨58, 58, a63, 284⟩,
   ⟨59, 255, a32, 273⟩]

/-- `sip/msg_parse.go:13095` (`st_case_463`). -/
def s463 : List Row :=
  [⟨0, 8, a32, 273⟩,
   ⟨9, 9, a57, 283⟩,
   ⟨10, 31, a32, 273⟩,
   ⟨32, 32, a57, 283⟩,
   ⟨33, 57, a32, 273⟩,
   ⟨58, 58, a57, 284⟩,
   ⟨59, 81, a32, 273⟩,
   ⟨82, 82, a2, 464⟩,
   ⟨83, 85, a32, 273⟩,
   ⟨86, 86, a2, 473⟩,
   ⟨87, 87, a32, 273⟩,
   ⟨88, 88, a2, 477⟩,
   ⟨89, 113, a32, 273⟩,
   ⟨114, 114, a2, 464⟩,
   ⟨115, 117, a32, 273⟩,
   ⟨118, 118, a2, 473⟩,
   ⟨119, 119, a32, 273⟩,
   ⟨120, 120, a2, 477⟩,
   ⟨121, 255, a32, 273⟩]

/-- `sip/msg_parse.go:13121` (`st_case_464`). -/
def s464 : List Row :=
  [⟨0, 81, a32, 273⟩,
   ⟨82, 82, a2, 465⟩,
   ⟨83, 113, a32, 273⟩,
   ⟨114, 114, a2, 465⟩,
   ⟨115, 255, a32, 273⟩]

/-- `sip/msg_parse.go:13133` (`st_case_465`). -/
def s465 : List Row :=
  [⟨0, 78, a32, 273⟩,
   ⟨79, 79, a2, 466⟩,
   ⟨80, 110, a32, 273⟩,
   ⟨111, 111, a2, 466⟩,
   ⟨112, 255, a32, 273⟩]

/-- `sip/msg_parse.go:13145` (`st_case_466`). -/
def s466 : List Row :=
  [⟨0, 81, a32, 273⟩,
   ⟨82, 82, a2, 467⟩,
   ⟨83, 113, a32, 273⟩,
   ⟨114, 114, a2, 467⟩,
   ⟨115, 255, a32, 273⟩]

/-- `sip/msg_parse.go:13157` (`st_case_467`). -/
def s467 : List Row :=
  [⟨0, 44, a32, 273⟩,
   ⟨45, 45, a2, 468⟩,
   ⟨46, 255, a32, 273⟩]

/-- `sip/msg_parse.go:13166` (`st_case_468`). -/
def s468 : List Row :=
  [⟨0, 72, a32, 273⟩,
   ⟨73, 73, a2, 469⟩,
   ⟨74, 104, a32, 273⟩,
   ⟨105, 105, a2, 469⟩,
   ⟨106, 255, a32, 273⟩]

/-- `sip/msg_parse.go:13178` (`st_case_469`). -/
def s469 : List Row :=
  [⟨0, 77, a32, 273⟩,
   ⟨78, 78, a2, 470⟩,
   ⟨79, 109, a32, 273⟩,
   ⟨110, 110, a2, 470⟩,
   ⟨111, 255, a32, 273⟩]

/-- `sip/msg_parse.go:13190` (`st_case_470`). -/
def s470 : List Row :=
  [⟨0, 69, a32, 273⟩,
   ⟨70, 70, a2, 471⟩,
   ⟨71, 101, a32, 273⟩,
   ⟨102, 102, a2, 471⟩,
   ⟨103, 255, a32, 273⟩]

/-- `sip/msg_parse.go:13202` (`st_case_471`). -/
def s471 : List Row :=
  [⟨0, 78, a32, 273⟩,
   ⟨79, 79, a2, 472⟩,
   ⟨80, 110, a32, 273⟩,
   ⟨111, 111, a2, 472⟩,
   ⟨112, 255, a32, 273⟩]

/-- `sip/msg_parse.go:13214` (`st_case_472`). -/
def s472 : List Row :=
  [⟨0, 8, a32, 273⟩,
   ⟨9, 9, a64, 283⟩,
   ⟨10, 31, a32, 273⟩,
   ⟨32, 32, a64, 283⟩,
   ⟨33, 57, a32, 273⟩,
   ⟨58, 58, a64, 284⟩,
   ⟨59, 255, a32, 273⟩]

/-- `sip/msg_parse.go:13228` (`st_case_473`). -/
def s473 : List Row :=
  [⟨0, 68, a32, 273⟩,
   ⟨69, 69, a2, 474⟩,
   ⟨70, 100, a32, 273⟩,
   ⟨101, 101, a2, 474⟩,
   ⟨102, 255, a32, 273⟩]

/-- `sip/msg_parse.go:13240` (`st_case_474`). -/
def s474 : List Row :=
  [⟨0, 77, a32, 273⟩,
   ⟨78, 78, a2, 475⟩,
   ⟨79, 109, a32, 273⟩,
   ⟨110, 110, a2, 475⟩,
   ⟨111, 255, a32, 273⟩]

/-- `sip/msg_parse.go:13252` (`st_case_475`). -/
def s475 : List Row :=
  [⟨0, 83, a32, 273⟩,
   ⟨84, 84, a2, 476⟩,
   ⟨85, 115, a32, 273⟩,
   ⟨116, 116, a2, 476⟩,
   ⟨117, 255, a32, 273⟩]

/-- `sip/msg_parse.go:13264` (`st_case_476`). -/
def s476 : List Row :=
  [⟨0, 8, a32, 273⟩,
   ⟨9, 9, a65, 283⟩,
   ⟨10, 31, a32, 273⟩,
   ⟨32, 32, a65, 283⟩,
   ⟨33, 57, a32, 273⟩,
   ⟨58, 58, a65, 284⟩,
   ⟨59, 255, a32, 273⟩]

/-- `sip/msg_parse.go:13278` (`st_case_477`). -/
def s477 : List Row :=
  [⟨0, 79, a32, 273⟩,
   ⟨80, 80, a2, 478⟩,
   ⟨81, 111, a32, 273⟩,
   ⟨112, 112, a2, 478⟩,
   ⟨113, 255, a32, 273⟩]

/-- `sip/msg_parse.go:13290` (`st_case_478`). -/
def s478 : List Row :=
  [⟨0, 72, a32, 273⟩,
   ⟨73, 73, a2, 479⟩,
   ⟨74, 104, a32, 273⟩,
   ⟨105, 105, a2, 479⟩,
   ⟨106, 255, a32, 273⟩]

/-- `sip/msg_parse.go:13302` (`st_case_479`). -/
def s479 : List Row :=
  [⟨0, 81, a32, 273⟩,
   ⟨82, 82, a2, 480⟩,
   ⟨83, 113, a32, 273⟩,
   ⟨114, 114, a2, 480⟩,
   ⟨115, 255, a32, 273⟩]

/-- `sip/msg_parse.go:13314` (`st_case_480`). -/
def s480 : List Row :=
  [⟨0, 68, a32, 273⟩,
   ⟨69, 69, a2, 481⟩,
   ⟨70, 100, a32, 273⟩,
   ⟨101, 101, a2, 481⟩,
   ⟨102, 255, a32, 273⟩]

/-- `sip/msg_parse.go:13326` (`st_case_481`). -/
def s481 : List Row :=
  [⟨0, 82, a32, 273⟩,
   ⟨83, 83, a2, 482⟩,
   ⟨84, 114, a32, 273⟩,
   ⟨115, 115, a2, 482⟩,
   ⟨116, 255, a32, 273⟩]

/-- `sip/msg_parse.go:13338` (`st_case_482`). -/
def s482 : List Row :=
  [⟨0, 8, a32, 273⟩,
   ⟨9, 9, a2, 483⟩,
   ⟨10, 31, a32, 273⟩,
   ⟨32, 32, a2, 483⟩,
   ⟨33, 57, a32, 273⟩,
   ⟨58, 58, a2, 484⟩,
   ⟨59, 255, a32, 273⟩]

/-- `sip/msg_parse.go:13352` (`st_case_483`). -/
def s483 : List Row :=
  [⟨9, 9, a2, 483⟩,
   ⟨32, 32, a2, 483⟩,
   ⟨58, 58, a2, 484⟩]

/-- `sip/msg_parse.go:13366` (`st_case_484`). -/
def s484 : List Row :=
  [⟨9, 9, a2, 484⟩,
   ⟨32, 32, a2, 484⟩,
   ⟨48, 57, a66, 485⟩,
   ⟨525, 525, a2, 486⟩]

/-- `sip/msg_parse.go:13404` (`st_case_485`). -/
def s485 : List Row :=
  [⟨48, 57, a67, 485⟩,
   ⟨269, 269, a2, 381⟩]

/-- `sip/msg_parse.go:13424` (`st_case_486`). -/
def s486 : List Row :=
  [⟨10, 10, a2, 487⟩]

/-- `sip/msg_parse.go:13433` (`st_case_487`). -/
def s487 : List Row :=
  [⟨9, 9, a2, 488⟩,
   ⟨32, 32, a2, 488⟩]

/-- `sip/msg_parse.go:13445` (`st_case_488`). -/
def s488 : List Row :=
  [⟨9, 9, a2, 488⟩,
   ⟨32, 32, a2, 488⟩,
   ⟨48, 57, a66, 485⟩]

/-- `sip/msg_parse.go:13460` (`st_case_489`). -/
def s489 : List Row :=
  [⟨0, 8, a32, 273⟩,
   ⟨9, 9, a68, 394⟩,
   ⟨10, 31, a32, 273⟩,
   ⟨32, 32, a68, 394⟩,
   ⟨33, 57, a32, 273⟩,
   ⟨58, 58, a68, 395⟩,
   ⟨59, 81, a32, 273⟩,
   ⟨82, 82, a2, 490⟩,
   ⟨83, 113, a32, 273⟩,
   ⟨114, 114, a2, 490⟩,
   ⟨115, 255, a32, 273⟩]

/-- `sip/msg_parse.go:13478` (`st_case_490`). -/
def s490 : List Row :=
  [⟨0, 78, a32, 273⟩,
   ⟨79, 79, a2, 491⟩,
   ⟨80, 110, a32, 273⟩,
   ⟨111, 111, a2, 491⟩,
   ⟨112, 255, a32, 273⟩]

/-- `sip/msg_parse.go:13490` (`st_case_491`). -/
def s491 : List Row :=
  [⟨0, 76, a32, 273⟩,
   ⟨77, 77, a2, 492⟩,
   ⟨78, 108, a32, 273⟩,
   ⟨109, 109, a2, 492⟩,
   ⟨110, 255, a32, 273⟩]

/-- `sip/msg_parse.go:13502` (`st_case_492`). -/
def s492 : List Row :=
  [⟨0, 8, a32, 273⟩,
   ⟨9, 9, a68, 394⟩,
   ⟨10, 31, a32, 273⟩,
   ⟨32, 32, a68, 394⟩,
   ⟨33, 57, a32, 273⟩,
   ⟨58, 58, a68, 395⟩,
   ⟨59, 255, a32, 273⟩]

/-- `sip/msg_parse.go:13516` (`st_case_493`). -/
def s493 : List Row :=
  [⟨0, 8, a32, 273⟩,
   ⟨9, 9, a2, 376⟩,
   ⟨10, 31, a32, 273⟩,
   ⟨32, 32, a2, 376⟩,
   ⟨33, 57, a32, 273⟩,
   ⟨58, 58, a2, 377⟩,
   ⟨59, 77, a32, 273⟩,
   ⟨78, 78, a2, 494⟩,
   ⟨79, 109, a32, 273⟩,
   ⟨110, 110, a2, 494⟩,
   ⟨111, 255, a32, 273⟩]

/-- `sip/msg_parse.go:13534` (`st_case_494`). -/
def s494 : List Row :=
  [⟨0, 44, a32, 273⟩,
   ⟨45, 45, a2, 495⟩,
   ⟨46, 255, a32, 273⟩]

/-- `sip/msg_parse.go:13543` (`st_case_495`). -/
def s495 : List Row :=
  [⟨0, 81, a32, 273⟩,
   ⟨82, 82, a2, 496⟩,
   ⟨83, 113, a32, 273⟩,
   ⟨114, 114, a2, 496⟩,
   ⟨115, 255, a32, 273⟩]

/-- `sip/msg_parse.go:13555` (`st_case_496`). -/
def s496 : List Row :=
  [⟨0, 68, a32, 273⟩,
   ⟨69, 69, a2, 497⟩,
   ⟨70, 100, a32, 273⟩,
   ⟨101, 101, a2, 497⟩,
   ⟨102, 255, a32, 273⟩]

/-- `sip/msg_parse.go:13567` (`st_case_497`). -/
def s497 : List Row :=
  [⟨0, 79, a32, 273⟩,
   ⟨80, 80, a2, 498⟩,
   ⟨81, 111, a32, 273⟩,
   ⟨112, 112, a2, 498⟩,
   ⟨113, 255, a32, 273⟩]

/-- `sip/msg_parse.go:13579` (`st_case_498`). -/
def s498 : List Row :=
  [⟨0, 75, a32, 273⟩,
   ⟨76, 76, a2, 499⟩,
   ⟨77, 107, a32, 273⟩,
   ⟨108, 108, a2, 499⟩,
   ⟨109, 255, a32, 273⟩]

/-- `sip/msg_parse.go:13591` (`st_case_499`). -/
def s499 : List Row :=
  [⟨0, 88, a32, 273⟩,
   ⟨89, 89, a2, 500⟩,
   ⟨90, 120, a32, 273⟩,
   ⟨121, 121, a2, 500⟩,
   ⟨122, 255, a32, 273⟩]

/-- `sip/msg_parse.go:13603` (`st_case_500`). -/
def s500 : List Row :=
  [⟨0, 44, a32, 273⟩,
   ⟨45, 45, a2, 501⟩,
   ⟨46, 255, a32, 273⟩]

/-- `sip/msg_parse.go:13612` (`st_case_501`). -/
def s501 : List Row :=
  [⟨0, 83, a32, 273⟩,
   ⟨84, 84, a2, 502⟩,
   ⟨85, 115, a32, 273⟩,
   ⟨116, 116, a2, 502⟩,
   ⟨117, 255, a32, 273⟩]

/-- `sip/msg_parse.go:13624` (`st_case_502`). -/
def s502 : List Row :=
  [⟨0, 78, a32, 273⟩,
   ⟨79, 79, a2, 503⟩,
   ⟨80, 110, a32, 273⟩,
   ⟨111, 111, a2, 503⟩,
   ⟨112, 255, a32, 273⟩]

/-- `sip/msg_parse.go:13636` (`st_case_503`). -/
def s503 : List Row :=
  [⟨0, 8, a32, 273⟩,
   ⟨9, 9, a69, 283⟩,
   ⟨10, 31, a32, 273⟩,
   ⟨32, 32, a69, 283⟩,
   ⟨33, 57, a32, 273⟩,
   ⟨58, 58, a69, 284⟩,
   ⟨59, 255, a32, 273⟩]

/-- `sip/msg_parse.go:13650` (`st_case_504`). -/
def s504 : List Row :=
  [⟨0, 8, a32, 273⟩,
   ⟨9, 9, a70, 283⟩,
   ⟨10, 31, a32, 273⟩,
   ⟨32, 32, a70, 283⟩,
   ⟨33, 57, a32, 273⟩,
   ⟨58, 58, a70, 284⟩,
   ⟨59, 255, a32, 273⟩]

/-- `sip/msg_parse.go:13664` (`st_case_505`). -/
def s505 : List Row :=
  [⟨0, 8, a32, 273⟩,
   ⟨9, 9, a2, 506⟩,
   ⟨10, 31, a32, 273⟩,
   ⟨32, 32, a2, 506⟩,
   ⟨33, 57, a32, 273⟩,
   ⟨58, 58, a2, 507⟩,
   ⟨59, 255, a32, 273⟩]

/-- `sip/msg_parse.go:13678` (`st_case_506`). -/
def s506 : List Row :=
  [⟨9, 9, a2, 506⟩,
   ⟨32, 32, a2, 506⟩,
   ⟨58, 58, a2, 507⟩]

/-- `sip/msg_parse.go:13692` (`st_case_507`). -/
def s507 : List Row :=
  [⟨9, 9, a2, 507⟩,
   ⟨32, 32, a2, 507⟩,
   ⟨48, 57, a71, 508⟩,
   ⟨525, 525, a2, 509⟩]

/-- `sip/msg_parse.go:13760` (`st_case_508`). -/
def s508 : List Row :=
  [⟨48, 57, a72, 508⟩,
   ⟨269, 269, a2, 381⟩]

/-- `sip/msg_parse.go:13780` (`st_case_509`). -/
def s509 : List Row :=
  [⟨10, 10, a2, 510⟩]

/-- `sip/msg_parse.go:13789` (`st_case_510`). -/
def s510 : List Row :=
  [⟨9, 9, a2, 511⟩,
   ⟨32, 32, a2, 511⟩]

/-- `sip/msg_parse.go:13801` (`st_case_511`). -/
def s511 : List Row :=
  [⟨9, 9, a2, 511⟩,
   ⟨32, 32, a2, 511⟩,
   ⟨48, 57, a71, 508⟩]

/-- `sip/msg_parse.go:13816` (`st_case_512`). -/
def s512 : List Row :=
  [⟨0, 8, a32, 273⟩,
   ⟨9, 9, a55, 394⟩,
   ⟨10, 31, a32, 273⟩,
   ⟨32, 32, a55, 394⟩,
   ⟨33, 57, a32, 273⟩,
   ⟨58, 58, a55, 395⟩,
   ⟨59, 64, a32, 273⟩,
   ⟨65, 65, a2, 513⟩,
   ⟨66, 72, a32, 273⟩,
   ⟨73, 73, a2, 530⟩,
   ⟨74, 96, a32, 273⟩,
   ⟨97, 97, a2, 513⟩,
   ⟨98, 104, a32, 273⟩,
   ⟨105, 105, a2, 530⟩,
   ⟨106, 255, a32, 273⟩]

/-- `sip/msg_parse.go:13838` (`st_case_513`). -/
def s513 : List Row :=
  [⟨0, 87, a32, 273⟩,
   ⟨88, 88, a2, 514⟩,
   ⟨89, 119, a32, 273⟩,
   ⟨120, 120, a2, 514⟩,
   ⟨121, 255, a32, 273⟩]

/-- `sip/msg_parse.go:13850` (`st_case_514`). -/
def s514 : List Row :=
  [⟨0, 44, a32, 273⟩,
   ⟨45, 45, a2, 515⟩,
   ⟨46, 255, a32, 273⟩]

/-- `sip/msg_parse.go:13859` (`st_case_515`). -/
def s515 : List Row :=
  [⟨0, 69, a32, 273⟩,
   ⟨70, 70, a2, 516⟩,
   ⟨71, 101, a32, 273⟩,
   ⟨102, 102, a2, 516⟩,
   ⟨103, 255, a32, 273⟩]

/-- `sip/msg_parse.go:13871` (`st_case_516`). -/
def s516 : List Row :=
  [⟨0, 78, a32, 273⟩,
   ⟨79, 79, a2, 517⟩,
   ⟨80, 110, a32, 273⟩,
   ⟨111, 111, a2, 517⟩,
   ⟨112, 255, a32, 273⟩]

/-- `sip/msg_parse.go:13883` (`st_case_517`). -/
def s517 : List Row :=
  [⟨0, 81, a32, 273⟩,
   ⟨82, 82, a2, 518⟩,
   ⟨83, 113, a32, 273⟩,
   ⟨114, 114, a2, 518⟩,
   ⟨115, 255, a32, 273⟩]

/-- `sip/msg_parse.go:13895` (`st_case_518`). -/
def s518 : List Row :=
  [⟨0, 86, a32, 273⟩,
   ⟨87, 87, a2, 519⟩,
   ⟨88, 118, a32, 273⟩,
   ⟨119, 119, a2, 519⟩,
   ⟨120, 255, a32, 273⟩]

/-- `sip/msg_parse.go:13907` (`st_case_519`). -/
def s519 : List Row :=
  [⟨0, 64, a32, 273⟩,
   ⟨65, 65, a2, 520⟩,
   ⟨66, 96, a32, 273⟩,
   ⟨97, 97, a2, 520⟩,
   ⟨98, 255, a32, 273⟩]

/-- `sip/msg_parse.go:13919` (`st_case_520`). -/
def s520 : List Row :=
  [⟨0, 81, a32, 273⟩,
   ⟨82, 82, a2, 521⟩,
   ⟨83, 113, a32, 273⟩,
   ⟨114, 114, a2, 521⟩,
   ⟨115, 255, a32, 273⟩]

/-- `sip/msg_parse.go:13931` (`st_case_521`). -/
def s521 : List Row :=
  [⟨0, 67, a32, 273⟩,
   ⟨68, 68, a2, 522⟩,
   ⟨69, 99, a32, 273⟩,
   ⟨100, 100, a2, 522⟩,
   ⟨101, 255, a32, 273⟩]

/-- `sip/msg_parse.go:13943` (`st_case_522`). -/
def s522 : List Row :=
  [⟨0, 82, a32, 273⟩,
   ⟨83, 83, a2, 523⟩,
   ⟨84, 114, a32, 273⟩,
   ⟨115, 115, a2, 523⟩,
   ⟨116, 255, a32, 273⟩]

/-- `sip/msg_parse.go:13955` (`st_case_523`). -/
def s523 : List Row :=
  [⟨0, 8, a32, 273⟩,
   ⟨9, 9, a2, 524⟩,
   ⟨10, 31, a32, 273⟩,
   ⟨32, 32, a2, 524⟩,
   ⟨33, 57, a32, 273⟩,
   ⟨58, 58, a2, 525⟩,
   ⟨59, 255, a32, 273⟩]

/-- `sip/msg_parse.go:13969` (`st_case_524`). -/
def s524 : List Row :=
  [⟨9, 9, a2, 524⟩,
   ⟨32, 32, a2, 524⟩,
   ⟨58, 58, a2, 525⟩]

/-- `sip/msg_parse.go:13983` (`st_case_525`). -/
def s525 : List Row :=
  [⟨9, 9, a2, 525⟩,
   ⟨32, 32, a2, 525⟩,
   ⟨48, 57, a73, 526⟩,
   ⟨525, 525, a2, 527⟩]

/-- `sip/msg_parse.go:14021` (`st_case_526`). -/
def s526 : List Row :=
  [⟨48, 57, a74, 526⟩,
   ⟨269, 269, a2, 381⟩]

/-- `sip/msg_parse.go:14041` (`st_case_527`). -/
def s527 : List Row :=
  [⟨10, 10, a2, 528⟩]

/-- `sip/msg_parse.go:14050` (`st_case_528`). -/
def s528 : List Row :=
  [⟨9, 9, a2, 529⟩,
   ⟨32, 32, a2, 529⟩]

/-- `sip/msg_parse.go:14062` (`st_case_529`). -/
def s529 : List Row :=
  [⟨9, 9, a2, 529⟩,
   ⟨32, 32, a2, 529⟩,
   ⟨48, 57, a73, 526⟩]

/-- `sip/msg_parse.go:14077` (`st_case_530`). -/
def s530 : List Row :=
  [⟨0, 76, a32, 273⟩,
   ⟨77, 77, a2, 531⟩,
   ⟨78, 78, a2, 541⟩,
   ⟨79, 108, a32, 273⟩,
   ⟨109, 109, a2, 531⟩,
   ⟨110, 110, a2, 541⟩,
   ⟨111, 255, a32, 273⟩]

/-- `sip/msg_parse.go:14093` (`st_case_531`). -/
def s531 : List Row :=
  [⟨0, 68, a32, 273⟩,
   ⟨69, 69, a2, 532⟩,
   ⟨70, 100, a32, 273⟩,
   ⟨101, 101, a2, 532⟩,
   ⟨102, 255, a32, 273⟩]

/-- `sip/msg_parse.go:14105` (`st_case_532`). -/
def s532 : List Row :=
  [⟨0, 44, a32, 273⟩,
   ⟨45, 45, a2, 533⟩,
   ⟨46, 255, a32, 273⟩]

/-- `sip/msg_parse.go:14114` (`st_case_533`). -/
def s533 : List Row :=
  [⟨0, 85, a32, 273⟩,
   ⟨86, 86, a2, 534⟩,
   ⟨87, 117, a32, 273⟩,
   ⟨118, 118, a2, 534⟩,
   ⟨119, 255, a32, 273⟩]

/-- `sip/msg_parse.go:14126` (`st_case_534`). -/
def s534 : List Row :=
  [⟨0, 68, a32, 273⟩,
   ⟨69, 69, a2, 535⟩,
   ⟨70, 100, a32, 273⟩,
   ⟨101, 101, a2, 535⟩,
   ⟨102, 255, a32, 273⟩]

/-- `sip/msg_parse.go:14138` (`st_case_535`). -/
def s535 : List Row :=
  [⟨0, 81, a32, 273⟩,
   ⟨82, 82, a2, 536⟩,
   ⟨83, 113, a32, 273⟩,
   ⟨114, 114, a2, 536⟩,
   ⟨115, 255, a32, 273⟩]

/-- `sip/msg_parse.go:14150` (`st_case_536`). -/
def s536 : List Row :=
  [⟨0, 82, a32, 273⟩,
   ⟨83, 83, a2, 537⟩,
   ⟨84, 114, a32, 273⟩,
   ⟨115, 115, a2, 537⟩,
   ⟨116, 255, a32, 273⟩]

/-- `sip/msg_parse.go:14162` (`st_case_537`). -/
def s537 : List Row :=
  [⟨0, 72, a32, 273⟩,
   ⟨73, 73, a2, 538⟩,
   ⟨74, 104, a32, 273⟩,
   ⟨105, 105, a2, 538⟩,
   ⟨106, 255, a32, 273⟩]

/-- `sip/msg_parse.go:14174` (`st_case_538`). -/
def s538 : List Row :=
  [⟨0, 78, a32, 273⟩,
   ⟨79, 79, a2, 539⟩,
   ⟨80, 110, a32, 273⟩,
   ⟨111, 111, a2, 539⟩,
   ⟨112, 255, a32, 273⟩]

/-- `sip/msg_parse.go:14186` (`st_case_539`). -/
def s539 : List Row :=
  [⟨0, 77, a32, 273⟩,
   ⟨78, 78, a2, 540⟩,
   ⟨79, 109, a32, 273⟩,
   ⟨110, 110, a2, 540⟩,
   ⟨111, 255, a32, 273⟩]

/-- `sip/msg_parse.go:14198` (`st_case_540`). -/
def s540 : List Row :=
  [⟨0, 8, a32, 273⟩,
   ⟨9, 9, a75, 283⟩,
   ⟨10, 31, a32, 273⟩,
   ⟨32, 32, a75, 283⟩,
   ⟨33, 57, a32, 273⟩,
   ⟨58, 58, a75, 284⟩,
   ⟨59, 255, a32, 273⟩]

/-- `sip/msg_parse.go:14212` (`st_case_541`). -/
def s541 : List Row :=
  [⟨0, 44, a32, 273⟩,
   ⟨45, 45, a2, 542⟩,
   ⟨46, 255, a32, 273⟩]

/-- `sip/msg_parse.go:14221` (`st_case_542`). -/
def s542 : List Row :=
  [⟨0, 68, a32, 273⟩,
   ⟨69, 69, a2, 543⟩,
   ⟨70, 100, a32, 273⟩,
   ⟨101, 101, a2, 543⟩,
   ⟨102, 255, a32, 273⟩]

/-- `sip/msg_parse.go:14233` (`st_case_543`). -/
def s543 : List Row :=
  [⟨0, 87, a32, 273⟩,
   ⟨88, 88, a2, 544⟩,
   ⟨89, 119, a32, 273⟩,
   ⟨120, 120, a2, 544⟩,
   ⟨121, 255, a32, 273⟩]

/-- `sip/msg_parse.go:14245` (`st_case_544`). -/
def s544 : List Row :=
  [⟨0, 79, a32, 273⟩,
   ⟨80, 80, a2, 545⟩,
   ⟨81, 111, a32, 273⟩,
   ⟨112, 112, a2, 545⟩,
   ⟨113, 255, a32, 273⟩]

/-- `sip/msg_parse.go:14257` (`st_case_545`). -/
def s545 : List Row :=
  [⟨0, 72, a32, 273⟩,
   ⟨73, 73, a2, 546⟩,
   ⟨74, 104, a32, 273⟩,
   ⟨105, 105, a2, 546⟩,
   ⟨106, 255, a32, 273⟩]

/-- `sip/msg_parse.go:14269` (`st_case_546`). -/
def s546 : List Row :=
  [⟨0, 81, a32, 273⟩,
   ⟨82, 82, a2, 547⟩,
   ⟨83, 113, a32, 273⟩,
   ⟨114, 114, a2, 547⟩,
   ⟨115, 255, a32, 273⟩]

/-- `sip/msg_parse.go:14281` (`st_case_547`). -/
def s547 : List Row :=
  [⟨0, 68, a32, 273⟩,
   ⟨69, 69, a2, 548⟩,
   ⟨70, 100, a32, 273⟩,
   ⟨101, 101, a2, 548⟩,
   ⟨102, 255, a32, 273⟩]

/-- `sip/msg_parse.go:14293` (`st_case_548`). -/
def s548 : List Row :=
  [⟨0, 82, a32, 273⟩,
   ⟨83, 83, a2, 549⟩,
   ⟨84, 114, a32, 273⟩,
   ⟨115, 115, a2, 549⟩,
   ⟨116, 255, a32, 273⟩]

/-- `sip/msg_parse.go:14305` (`st_case_549`). -/
def s549 : List Row :=
  [⟨0, 8, a32, 273⟩,
   ⟨9, 9, a2, 550⟩,
   ⟨10, 31, a32, 273⟩,
   ⟨32, 32, a2, 550⟩,
   ⟨33, 57, a32, 273⟩,
   ⟨58, 58, a2, 551⟩,
   ⟨59, 255, a32, 273⟩]

/-- `sip/msg_parse.go:14319` (`st_case_550`). -/
def s550 : List Row :=
  [⟨9, 9, a2, 550⟩,
   ⟨32, 32, a2, 550⟩,
   ⟨58, 58, a2, 551⟩]

/-- `sip/msg_parse.go:14333` (`st_case_551`). -/
def s551 : List Row :=
  [⟨9, 9, a2, 551⟩,
   ⟨32, 32, a2, 551⟩,
   ⟨48, 57, a76, 552⟩,
   ⟨525, 525, a2, 553⟩]

/-- `sip/msg_parse.go:14371` (`st_case_552`). -/
def s552 : List Row :=
  [⟨48, 57, a77, 552⟩,
   ⟨269, 269, a2, 381⟩]

/-- `sip/msg_parse.go:14391` (`st_case_553`). -/
def s553 : List Row :=
  [⟨10, 10, a2, 554⟩]

/-- `sip/msg_parse.go:14400` (`st_case_554`). -/
def s554 : List Row :=
  [⟨9, 9, a2, 555⟩,
   ⟨32, 32, a2, 555⟩]

/-- `sip/msg_parse.go:14412` (`st_case_555`). -/
def s555 : List Row :=
  [⟨9, 9, a2, 555⟩,
   ⟨32, 32, a2, 555⟩,
   ⟨48, 57, a76, 552⟩]

/-- `sip/msg_parse.go:14427` (`st_case_556`). -/
def s556 : List Row :=
  [⟨0, 8, a32, 273⟩,
   ⟨9, 9, a65, 283⟩,
   ⟨10, 31, a32, 273⟩,
   ⟨32, 32, a65, 283⟩,
   ⟨33, 57, a32, 273⟩,
   ⟨58, 58, a65, 284⟩,
   ⟨59, 81, a32, 273⟩,
   ⟨82, 82, a2, 557⟩,
   ⟨83, 113, a32, 273⟩,
   ⟨114, 114, a2, 557⟩,
   ⟨115, 255, a32, 273⟩]

/-- `sip/msg_parse.go:14445` (`st_case_557`). -/
def s557 : List Row :=
  [⟨0, 70, a32, 273⟩,
   ⟨71, 71, a2, 558⟩,
   ⟨72, 102, a32, 273⟩,
   ⟨103, 103, a2, 558⟩,
   ⟨104, 255, a32, 273⟩]

/-- `sip/msg_parse.go:14457` (`st_case_558`). -/
def s558 : List Row :=
  [⟨0, 64, a32, 273⟩,
   ⟨65, 65, a2, 559⟩,
   ⟨66, 96, a32, 273⟩,
   ⟨97, 97, a2, 559⟩,
   ⟨98, 255, a32, 273⟩]

/-- `sip/msg_parse.go:14469` (`st_case_559`). -/
def s559 : List Row :=
  [⟨0, 77, a32, 273⟩,
   ⟨78, 78, a2, 560⟩,
   ⟨79, 109, a32, 273⟩,
   ⟨110, 110, a2, 560⟩,
   ⟨111, 255, a32, 273⟩]

/-- `sip/msg_parse.go:14481` (`st_case_560`). -/
def s560 : List Row :=
  [⟨0, 72, a32, 273⟩,
   ⟨73, 73, a2, 561⟩,
   ⟨74, 104, a32, 273⟩,
   ⟨105, 105, a2, 561⟩,
   ⟨106, 255, a32, 273⟩]

/-- `sip/msg_parse.go:14493` (`st_case_561`). -/
def s561 : List Row :=
  [⟨0, 89, a32, 273⟩,
   ⟨90, 90, a2, 562⟩,
   ⟨91, 121, a32, 273⟩,
   ⟨122, 122, a2, 562⟩,
   ⟨123, 255, a32, 273⟩]

/-- `sip/msg_parse.go:14505` (`st_case_562`). -/
def s562 : List Row :=
  [⟨0, 64, a32, 273⟩,
   ⟨65, 65, a2, 563⟩,
   ⟨66, 96, a32, 273⟩,
   ⟨97, 97, a2, 563⟩,
   ⟨98, 255, a32, 273⟩]

/-- `sip/msg_parse.go:14517` (`st_case_563`). -/
def s563 : List Row :=
  [⟨0, 83, a32, 273⟩,
   ⟨84, 84, a2, 564⟩,
   ⟨85, 115, a32, 273⟩,
   ⟨116, 116, a2, 564⟩,
   ⟨117, 255, a32, 273⟩]

/-- `sip/msg_parse.go:14529` (`st_case_564`). -/
def s564 : List Row :=
  [⟨0, 72, a32, 273⟩,
   ⟨73, 73, a2, 565⟩,
   ⟨74, 104, a32, 273⟩,
   ⟨105, 105, a2, 565⟩,
   ⟨106, 255, a32, 273⟩]

/-- `sip/msg_parse.go:14541` (`st_case_565`). -/
def s565 : List Row :=
  [⟨0, 78, a32, 273⟩,
   ⟨79, 79, a2, 566⟩,
   ⟨80, 110, a32, 273⟩,
   ⟨111, 111, a2, 566⟩,
   ⟨112, 255, a32, 273⟩]

/-- `sip/msg_parse.go:14553` (`st_case_566`). -/
def s566 : List Row :=
  [⟨0, 77, a32, 273⟩,
   ⟨78, 78, a2, 567⟩,
   ⟨79, 109, a32, 273⟩,
   ⟨110, 110, a2, 567⟩,
   ⟨111, 255, a32, 273⟩]

/-- `sip/msg_parse.go:14565` (`st_case_567`). -/
def s567 : List Row :=
  [⟨0, 8, a32, 273⟩,
   ⟨9, 9, a78, 283⟩,
   ⟨10, 31, a32, 273⟩,
   ⟨32, 32, a78, 283⟩,
   ⟨33, 57, a32, 273⟩,
   ⟨58, 58, a78, 284⟩,
   ⟨59, 255, a32, 273⟩]

/-- `sip/msg_parse.go:14579` (`st_case_568`). -/
def s568 : List Row :=
  [⟨0, 44, a32, 273⟩,
   ⟨45, 45, a2, 569⟩,
   ⟨46, 81, a32, 273⟩,
   ⟨82, 82, a2, 587⟩,
   ⟨83, 113, a32, 273⟩,
   ⟨114, 114, a2, 587⟩,
   ⟨115, 255, a32, 273⟩]

/-- `sip/msg_parse.go:14593` (`st_case_569`). -/
def s569 : List Row :=
  [⟨0, 64, a32, 273⟩,
   ⟨65, 65, a2, 570⟩,
   ⟨66, 96, a32, 273⟩,
   ⟨97, 97, a2, 570⟩,
   ⟨98, 255, a32, 273⟩]

/-- `sip/msg_parse.go:14605` (`st_case_570`). -/
def s570 : List Row :=
  [⟨0, 82, a32, 273⟩,
   ⟨83, 83, a2, 571⟩,
   ⟨84, 114, a32, 273⟩,
   ⟨115, 115, a2, 571⟩,
   ⟨116, 255, a32, 273⟩]

/-- `sip/msg_parse.go:14617` (`st_case_571`). -/
def s571 : List Row :=
  [⟨0, 82, a32, 273⟩,
   ⟨83, 83, a2, 572⟩,
   ⟨84, 114, a32, 273⟩,
   ⟨115, 115, a2, 572⟩,
   ⟨116, 255, a32, 273⟩]

/-- `sip/msg_parse.go:14629` (`st_case_572`). -/
def s572 : List Row :=
  [⟨0, 68, a32, 273⟩,
   ⟨69, 69, a2, 573⟩,
   ⟨70, 100, a32, 273⟩,
   ⟨101, 101, a2, 573⟩,
   ⟨102, 255, a32, 273⟩]

/-- `sip/msg_parse.go:14641` (`st_case_573`). -/
def s573 : List Row :=
  [⟨0, 81, a32, 273⟩,
   ⟨82, 82, a2, 574⟩,
   ⟨83, 113, a32, 273⟩,
   ⟨114, 114, a2, 574⟩,
   ⟨115, 255, a32, 273⟩]

/-- `sip/msg_parse.go:14653` (`st_case_574`). -/
def s574 : List Row :=
  [⟨0, 83, a32, 273⟩,
   ⟨84, 84, a2, 575⟩,
   ⟨85, 115, a32, 273⟩,
   ⟨116, 116, a2, 575⟩,
   ⟨117, 255, a32, 273⟩]

/-- `sip/msg_parse.go:14665` (`st_case_575`). -/
def s575 : List Row :=
  [⟨0, 68, a32, 273⟩,
   ⟨69, 69, a2, 576⟩,
   ⟨70, 100, a32, 273⟩,
   ⟨101, 101, a2, 576⟩,
   ⟨102, 255, a32, 273⟩]

/-- `sip/msg_parse.go:14677` (`st_case_576`). -/
def s576 : List Row :=
  [⟨0, 67, a32, 273⟩,
   ⟨68, 68, a2, 577⟩,
   ⟨69, 99, a32, 273⟩,
   ⟨100, 100, a2, 577⟩,
   ⟨101, 255, a32, 273⟩]

/-- `sip/msg_parse.go:14689` (`st_case_577`). -/
def s577 : List Row :=
  [⟨0, 44, a32, 273⟩,
   ⟨45, 45, a2, 578⟩,
   ⟨46, 255, a32, 273⟩]

/-- `sip/msg_parse.go:14698` (`st_case_578`). -/
def s578 : List Row :=
  [⟨0, 72, a32, 273⟩,
   ⟨73, 73, a2, 579⟩,
   ⟨74, 104, a32, 273⟩,
   ⟨105, 105, a2, 579⟩,
   ⟨106, 255, a32, 273⟩]

/-- `sip/msg_parse.go:14710` (`st_case_579`). -/
def s579 : List Row :=
  [⟨0, 67, a32, 273⟩,
   ⟨68, 68, a2, 580⟩,
   ⟨69, 99, a32, 273⟩,
   ⟨100, 100, a2, 580⟩,
   ⟨101, 255, a32, 273⟩]

/-- `sip/msg_parse.go:14722` (`st_case_580`). -/
def s580 : List Row :=
  [⟨0, 68, a32, 273⟩,
   ⟨69, 69, a2, 581⟩,
   ⟨70, 100, a32, 273⟩,
   ⟨101, 101, a2, 581⟩,
   ⟨102, 255, a32, 273⟩]

/-- `sip/msg_parse.go:14734` (`st_case_581`). -/
def s581 : List Row :=
  [⟨0, 77, a32, 273⟩,
   ⟨78, 78, a2, 582⟩,
   ⟨79, 109, a32, 273⟩,
   ⟨110, 110, a2, 582⟩,
   ⟨111, 255, a32, 273⟩]

/-- `sip/msg_parse.go:14746` (`st_case_582`). -/
def s582 : List Row :=
  [⟨0, 83, a32, 273⟩,
   ⟨84, 84, a2, 583⟩,
   ⟨85, 115, a32, 273⟩,
   ⟨116, 116, a2, 583⟩,
   ⟨117, 255, a32, 273⟩]

/-- `sip/msg_parse.go:14758` (`st_case_583`). -/
def s583 : List Row :=
  [⟨0, 72, a32, 273⟩,
   ⟨73, 73, a2, 584⟩,
   ⟨74, 104, a32, 273⟩,
   ⟨105, 105, a2, 584⟩,
   ⟨106, 255, a32, 273⟩]

/-- `sip/msg_parse.go:14770` (`st_case_584`). -/
def s584 : List Row :=
  [⟨0, 83, a32, 273⟩,
   ⟨84, 84, a2, 585⟩,
   ⟨85, 115, a32, 273⟩,
   ⟨116, 116, a2, 585⟩,
   ⟨117, 255, a32, 273⟩]

/-- `sip/msg_parse.go:14782` (`st_case_585`). -/
def s585 : List Row :=
  [⟨0, 88, a32, 273⟩,
   ⟨89, 89, a2, 586⟩,
   ⟨90, 120, a32, 273⟩,
   ⟨121, 121, a2, 586⟩,
   ⟨122, 255, a32, 273⟩]

/-- `sip/msg_parse.go:14794` (`st_case_586`). -/
def s586 : List Row :=
  [⟨0, 8, a32, 273⟩,
   ⟨9, 9, a79, 394⟩,
   ⟨10, 31, a32, 273⟩,
   ⟨32, 32, a79, 394⟩,
   ⟨33, 57, a32, 273⟩,
   ⟨58, 58, a79, 395⟩,
   ⟨59, 255, a32, 273⟩]

/-- `sip/msg_parse.go:14808` (`st_case_587`). -/
def s587 : List Row :=
  [⟨0, 72, a32, 273⟩,
   ⟨73, 73, a2, 588⟩,
   ⟨74, 78, a32, 273⟩,
   ⟨79, 79, a2, 594⟩,
   ⟨80, 104, a32, 273⟩,
   ⟨105, 105, a2, 588⟩,
   ⟨106, 110, a32, 273⟩,
   ⟨111, 111, a2, 594⟩,
   ⟨112, 255, a32, 273⟩]

/-- `sip/msg_parse.go:14824` (`st_case_588`). -/
def s588 : List Row :=
  [⟨0, 78, a32, 273⟩,
   ⟨79, 79, a2, 589⟩,
   ⟨80, 110, a32, 273⟩,
   ⟨111, 111, a2, 589⟩,
   ⟨112, 255, a32, 273⟩]

/-- `sip/msg_parse.go:14836` (`st_case_589`). -/
def s589 : List Row :=
  [⟨0, 81, a32, 273⟩,
   ⟨82, 82, a2, 590⟩,
   ⟨83, 113, a32, 273⟩,
   ⟨114, 114, a2, 590⟩,
   ⟨115, 255, a32, 273⟩]

/-- `sip/msg_parse.go:14848` (`st_case_590`). -/
def s590 : List Row :=
  [⟨0, 72, a32, 273⟩,
   ⟨73, 73, a2, 591⟩,
   ⟨74, 104, a32, 273⟩,
   ⟨105, 105, a2, 591⟩,
   ⟨106, 255, a32, 273⟩]

/-- `sip/msg_parse.go:14860` (`st_case_591`). -/
def s591 : List Row :=
  [⟨0, 83, a32, 273⟩,
   ⟨84, 84, a2, 592⟩,
   ⟨85, 115, a32, 273⟩,
   ⟨116, 116, a2, 592⟩,
   ⟨117, 255, a32, 273⟩]

/-- `sip/msg_parse.go:14872` (`st_case_592`). -/
def s592 : List Row :=
  [⟨0, 88, a32, 273⟩,
   ⟨89, 89, a2, 593⟩,
   ⟨90, 120, a32, 273⟩,
   ⟨121, 121, a2, 593⟩,
   ⟨122, 255, a32, 273⟩]

/-- `sip/msg_parse.go:14884` (`st_case_593`). -/
def s593 : List Row :=
  [⟨0, 8, a32, 273⟩,
   ⟨9, 9, a80, 283⟩,
   ⟨10, 31, a32, 273⟩,
   ⟨32, 32, a80, 283⟩,
   ⟨33, 57, a32, 273⟩,
   ⟨58, 58, a80, 284⟩,
   ⟨59, 255, a32, 273⟩]

/-- `sip/msg_parse.go:14898` (`st_case_594`). -/
def s594 : List Row :=
  [⟨0, 87, a32, 273⟩,
   ⟨88, 88, a2, 595⟩,
   ⟨89, 119, a32, 273⟩,
   ⟨120, 120, a2, 595⟩,
   ⟨121, 255, a32, 273⟩]

/-- `sip/msg_parse.go:14910` (`st_case_595`). -/
def s595 : List Row :=
  [⟨0, 88, a32, 273⟩,
   ⟨89, 89, a2, 596⟩,
   ⟨90, 120, a32, 273⟩,
   ⟨121, 121, a2, 596⟩,
   ⟨122, 255, a32, 273⟩]

/-- `sip/msg_parse.go:14922` (`st_case_596`). -/
def s596 : List Row :=
  [⟨0, 44, a32, 273⟩,
   ⟨45, 45, a2, 597⟩,
   ⟨46, 255, a32, 273⟩]

/-- `sip/msg_parse.go:14931` (`st_case_597`). -/
def s597 : List Row :=
  [⟨0, 64, a32, 273⟩,
   ⟨65, 65, a2, 598⟩,
   ⟨66, 81, a32, 273⟩,
   ⟨82, 82, a2, 619⟩,
   ⟨83, 96, a32, 273⟩,
   ⟨97, 97, a2, 598⟩,
   ⟨98, 113, a32, 273⟩,
   ⟨114, 114, a2, 619⟩,
   ⟨115, 255, a32, 273⟩]

/-- `sip/msg_parse.go:14947` (`st_case_598`). -/
def s598 : List Row :=
  [⟨0, 84, a32, 273⟩,
   ⟨85, 85, a2, 599⟩,
   ⟨86, 116, a32, 273⟩,
   ⟨117, 117, a2, 599⟩,
   ⟨118, 255, a32, 273⟩]

/-- `sip/msg_parse.go:14959` (`st_case_599`). -/
def s599 : List Row :=
  [⟨0, 83, a32, 273⟩,
   ⟨84, 84, a2, 600⟩,
   ⟨85, 115, a32, 273⟩,
   ⟨116, 116, a2, 600⟩,
   ⟨117, 255, a32, 273⟩]

/-- `sip/msg_parse.go:14971` (`st_case_600`). -/
def s600 : List Row :=
  [⟨0, 71, a32, 273⟩,
   ⟨72, 72, a2, 601⟩,
   ⟨73, 103, a32, 273⟩,
   ⟨104, 104, a2, 601⟩,
   ⟨105, 255, a32, 273⟩]

/-- `sip/msg_parse.go:14983` (`st_case_601`). -/
def s601 : List Row :=
  [⟨0, 68, a32, 273⟩,
   ⟨69, 69, a2, 602⟩,
   ⟨70, 78, a32, 273⟩,
   ⟨79, 79, a2, 610⟩,
   ⟨80, 100, a32, 273⟩,
   ⟨101, 101, a2, 602⟩,
   ⟨102, 110, a32, 273⟩,
   ⟨111, 111, a2, 610⟩,
   ⟨112, 255, a32, 273⟩]

/-- `sip/msg_parse.go:14999` (`st_case_602`). -/
def s602 : List Row :=
  [⟨0, 77, a32, 273⟩,
   ⟨78, 78, a2, 603⟩,
   ⟨79, 109, a32, 273⟩,
   ⟨110, 110, a2, 603⟩,
   ⟨111, 255, a32, 273⟩]

/-- `sip/msg_parse.go:15011` (`st_case_603`). -/
def s603 : List Row :=
  [⟨0, 83, a32, 273⟩,
   ⟨84, 84, a2, 604⟩,
   ⟨85, 115, a32, 273⟩,
   ⟨116, 116, a2, 604⟩,
   ⟨117, 255, a32, 273⟩]

/-- `sip/msg_parse.go:15023` (`st_case_604`). -/
def s604 : List Row :=
  [⟨0, 72, a32, 273⟩,
   ⟨73, 73, a2, 605⟩,
   ⟨74, 104, a32, 273⟩,
   ⟨105, 105, a2, 605⟩,
   ⟨106, 255, a32, 273⟩]

/-- `sip/msg_parse.go:15035` (`st_case_605`). -/
def s605 : List Row :=
  [⟨0, 66, a32, 273⟩,
   ⟨67, 67, a2, 606⟩,
   ⟨68, 98, a32, 273⟩,
   ⟨99, 99, a2, 606⟩,
   ⟨100, 255, a32, 273⟩]

/-- `sip/msg_parse.go:15047` (`st_case_606`). -/
def s606 : List Row :=
  [⟨0, 64, a32, 273⟩,
   ⟨65, 65, a2, 607⟩,
   ⟨66, 96, a32, 273⟩,
   ⟨97, 97, a2, 607⟩,
   ⟨98, 255, a32, 273⟩]

/-- `sip/msg_parse.go:15059` (`st_case_607`). -/
def s607 : List Row :=
  [⟨0, 83, a32, 273⟩,
   ⟨84, 84, a2, 608⟩,
   ⟨85, 115, a32, 273⟩,
   ⟨116, 116, a2, 608⟩,
   ⟨117, 255, a32, 273⟩]

/-- `sip/msg_parse.go:15071` (`st_case_608`). -/
def s608 : List Row :=
  [⟨0, 68, a32, 273⟩,
   ⟨69, 69, a2, 609⟩,
   ⟨70, 100, a32, 273⟩,
   ⟨101, 101, a2, 609⟩,
   ⟨102, 255, a32, 273⟩]

/-- `sip/msg_parse.go:15083` (`st_case_609`). -/
def s609 : List Row :=
  [⟨0, 8, a32, 273⟩,
   ⟨9, 9, a81, 283⟩,
   ⟨10, 31, a32, 273⟩,
   ⟨32, 32, a81, 283⟩,
   ⟨33, 57, a32, 273⟩,
   ⟨58, 58, a81, 284⟩,
   ⟨59, 255, a32, 273⟩]

/-- `sip/msg_parse.go:15097` (`st_case_610`). -/
def s610 : List Row :=
  [⟨0, 81, a32, 273⟩,
   ⟨82, 82, a2, 611⟩,
   ⟨83, 113, a32, 273⟩,
   ⟨114, 114, a2, 611⟩,
   ⟨115, 255, a32, 273⟩]

/-- `sip/msg_parse.go:15109` (`st_case_611`). -/
def s611 : List Row :=
  [⟨0, 72, a32, 273⟩,
   ⟨73, 73, a2, 612⟩,
   ⟨74, 104, a32, 273⟩,
   ⟨105, 105, a2, 612⟩,
   ⟨106, 255, a32, 273⟩]

/-- `sip/msg_parse.go:15121` (`st_case_612`). -/
def s612 : List Row :=
  [⟨0, 89, a32, 273⟩,
   ⟨90, 90, a2, 613⟩,
   ⟨91, 121, a32, 273⟩,
   ⟨122, 122, a2, 613⟩,
   ⟨123, 255, a32, 273⟩]

/-- `sip/msg_parse.go:15133` (`st_case_613`). -/
def s613 : List Row :=
  [⟨0, 64, a32, 273⟩,
   ⟨65, 65, a2, 614⟩,
   ⟨66, 96, a32, 273⟩,
   ⟨97, 97, a2, 614⟩,
   ⟨98, 255, a32, 273⟩]

/-- `sip/msg_parse.go:15145` (`st_case_614`). -/
def s614 : List Row :=
  [⟨0, 83, a32, 273⟩,
   ⟨84, 84, a2, 615⟩,
   ⟨85, 115, a32, 273⟩,
   ⟨116, 116, a2, 615⟩,
   ⟨117, 255, a32, 273⟩]

/-- `sip/msg_parse.go:15157` (`st_case_615`). -/
def s615 : List Row :=
  [⟨0, 72, a32, 273⟩,
   ⟨73, 73, a2, 616⟩,
   ⟨74, 104, a32, 273⟩,
   ⟨105, 105, a2, 616⟩,
   ⟨106, 255, a32, 273⟩]

/-- `sip/msg_parse.go:15169` (`st_case_616`). -/
def s616 : List Row :=
  [⟨0, 78, a32, 273⟩,
   ⟨79, 79, a2, 617⟩,
   ⟨80, 110, a32, 273⟩,
   ⟨111, 111, a2, 617⟩,
   ⟨112, 255, a32, 273⟩]

/-- `sip/msg_parse.go:15181` (`st_case_617`). -/
def s617 : List Row :=
  [⟨0, 77, a32, 273⟩,
   ⟨78, 78, a2, 618⟩,
   ⟨79, 109, a32, 273⟩,
   ⟨110, 110, a2, 618⟩,
   ⟨111, 255, a32, 273⟩]

/-- `sip/msg_parse.go:15193` (`st_case_618`). -/
def s618 : List Row :=
  [⟨0, 8, a32, 273⟩,
   ⟨9, 9, a82, 283⟩,
   ⟨10, 31, a32, 273⟩,
   ⟨32, 32, a82, 283⟩,
   ⟨33, 57, a32, 273⟩,
   ⟨58, 58, a82, 284⟩,
   ⟨59, 255, a32, 273⟩]

/-- `sip/msg_parse.go:15207` (`st_case_619`). -/
def s619 : List Row :=
  [⟨0, 68, a32, 273⟩,
   ⟨69, 69, a2, 620⟩,
   ⟨70, 100, a32, 273⟩,
   ⟨101, 101, a2, 620⟩,
   ⟨102, 255, a32, 273⟩]

/-- `sip/msg_parse.go:15219` (`st_case_620`). -/
def s620 : List Row :=
  [⟨0, 80, a32, 273⟩,
   ⟨81, 81, a2, 621⟩,
   ⟨82, 112, a32, 273⟩,
   ⟨113, 113, a2, 621⟩,
   ⟨114, 255, a32, 273⟩]

/-- `sip/msg_parse.go:15231` (`st_case_621`). -/
def s621 : List Row :=
  [⟨0, 84, a32, 273⟩,
   ⟨85, 85, a2, 622⟩,
   ⟨86, 116, a32, 273⟩,
   ⟨117, 117, a2, 622⟩,
   ⟨118, 255, a32, 273⟩]

/-- `sip/msg_parse.go:15243` (`st_case_622`). -/
def s622 : List Row :=
  [⟨0, 72, a32, 273⟩,
   ⟨73, 73, a2, 623⟩,
   ⟨74, 104, a32, 273⟩,
   ⟨105, 105, a2, 623⟩,
   ⟨106, 255, a32, 273⟩]

/-- `sip/msg_parse.go:15255` (`st_case_623`). -/
def s623 : List Row :=
  [⟨0, 81, a32, 273⟩,
   ⟨82, 82, a2, 624⟩,
   ⟨83, 113, a32, 273⟩,
   ⟨114, 114, a2, 624⟩,
   ⟨115, 255, a32, 273⟩]

/-- `sip/msg_parse.go:15267` (`st_case_624`). -/
def s624 : List Row :=
  [⟨0, 68, a32, 273⟩,
   ⟨69, 69, a2, 625⟩,
   ⟨70, 100, a32, 273⟩,
   ⟨101, 101, a2, 625⟩,
   ⟨102, 255, a32, 273⟩]

/-- `sip/msg_parse.go:15279` (`st_case_625`). -/
def s625 : List Row :=
  [⟨0, 8, a32, 273⟩,
   ⟨9, 9, a83, 283⟩,
   ⟨10, 31, a32, 273⟩,
   ⟨32, 32, a83, 283⟩,
   ⟨33, 57, a32, 273⟩,
   ⟨58, 58, a83, 284⟩,
   ⟨59, 255, a32, 273⟩]

/-- `sip/msg_parse.go:15293` (`st_case_626`). -/
def s626 : List Row :=
  [⟨0, 8, a32, 273⟩,
   ⟨9, 9, a84, 283⟩,
   ⟨10, 31, a32, 273⟩,
   ⟨32, 32, a84, 283⟩,
   ⟨33, 57, a32, 273⟩,
   ⟨58, 58, a84, 284⟩,
   ⟨59, 68, a32, 273⟩,
   ⟨69, 69, a2, 627⟩,
   ⟨70, 78, a32, 273⟩,
   ⟨79, 79, a2, 682⟩,
   ⟨80, 100, a32, 273⟩,
   ⟨101, 101, a2, 627⟩,
   ⟨102, 110, a32, 273⟩,
   ⟨111, 111, a2, 682⟩,
   ⟨112, 255, a32, 273⟩]

/-- `sip/msg_parse.go:15315` (`st_case_627`). -/
def s627 : List Row :=
  [⟨0, 66, a32, 273⟩,
   ⟨67, 67, a2, 628⟩,
   ⟨68, 69, a32, 273⟩,
   ⟨70, 70, a2, 638⟩,
   ⟨71, 76, a32, 273⟩,
   ⟨77, 77, a2, 649⟩,
   ⟨78, 79, a32, 273⟩,
   ⟨80, 80, a2, 662⟩,
   ⟨81, 81, a2, 668⟩,
   ⟨82, 83, a32, 273⟩,
   ⟨84, 84, a2, 673⟩,
   ⟨85, 98, a32, 273⟩,
   ⟨99, 99, a2, 628⟩,
   ⟨100, 101, a32, 273⟩,
   ⟨102, 102, a2, 638⟩,
   ⟨103, 108, a32, 273⟩,
   ⟨109, 109, a2, 649⟩,
   ⟨110, 111, a32, 273⟩,
   ⟨112, 112, a2, 662⟩,
   ⟨113, 113, a2, 668⟩,
   ⟨114, 115, a32, 273⟩,
   ⟨116, 116, a2, 673⟩,
   ⟨117, 255, a32, 273⟩]

/-- `sip/msg_parse.go:15347` (`st_case_628`). -/
def s628 : List Row :=
  [⟨0, 78, a32, 273⟩,
   ⟨79, 79, a2, 629⟩,
   ⟨80, 110, a32, 273⟩,
   ⟨111, 111, a2, 629⟩,
   ⟨112, 255, a32, 273⟩]

/-- `sip/msg_parse.go:15359` (`st_case_629`). -/
def s629 : List Row :=
  [⟨0, 81, a32, 273⟩,
   ⟨82, 82, a2, 630⟩,
   ⟨83, 113, a32, 273⟩,
   ⟨114, 114, a2, 630⟩,
   ⟨115, 255, a32, 273⟩]

/-- `sip/msg_parse.go:15371` (`st_case_630`). -/
def s630 : List Row :=
  [⟨0, 67, a32, 273⟩,
   ⟨68, 68, a2, 631⟩,
   ⟨69, 99, a32, 273⟩,
   ⟨100, 100, a2, 631⟩,
   ⟨101, 255, a32, 273⟩]

/-- `sip/msg_parse.go:15383` (`st_case_631`). -/
def s631 : List Row :=
  [⟨0, 44, a32, 273⟩,
   ⟨45, 45, a2, 632⟩,
   ⟨46, 255, a32, 273⟩]

/-- `sip/msg_parse.go:15392` (`st_case_632`). -/
def s632 : List Row :=
  [⟨0, 81, a32, 273⟩,
   ⟨82, 82, a2, 633⟩,
   ⟨83, 113, a32, 273⟩,
   ⟨114, 114, a2, 633⟩,
   ⟨115, 255, a32, 273⟩]

/-- `sip/msg_parse.go:15404` (`st_case_633`). -/
def s633 : List Row :=
  [⟨0, 78, a32, 273⟩,
   ⟨79, 79, a2, 634⟩,
   ⟨80, 110, a32, 273⟩,
   ⟨111, 111, a2, 634⟩,
   ⟨112, 255, a32, 273⟩]

/-- `sip/msg_parse.go:15416` (`st_case_634`). -/
def s634 : List Row :=
  [⟨0, 84, a32, 273⟩,
   ⟨85, 85, a2, 635⟩,
   ⟨86, 116, a32, 273⟩,
   ⟨117, 117, a2, 635⟩,
   ⟨118, 255, a32, 273⟩]

/-- `sip/msg_parse.go:15428` (`st_case_635`). -/
def s635 : List Row :=
  [⟨0, 83, a32, 273⟩,
   ⟨84, 84, a2, 636⟩,
   ⟨85, 115, a32, 273⟩,
   ⟨116, 116, a2, 636⟩,
   ⟨117, 255, a32, 273⟩]

/-- `sip/msg_parse.go:15440` (`st_case_636`). -/
def s636 : List Row :=
  [⟨0, 68, a32, 273⟩,
   ⟨69, 69, a2, 637⟩,
   ⟨70, 100, a32, 273⟩,
   ⟨101, 101, a2, 637⟩,
   ⟨102, 255, a32, 273⟩]

/-- `sip/msg_parse.go:15452` (`st_case_637`). -/
def s637 : List Row :=
  [⟨0, 8, a32, 273⟩,
   ⟨9, 9, a85, 394⟩,
   ⟨10, 31, a32, 273⟩,
   ⟨32, 32, a85, 394⟩,
   ⟨33, 57, a32, 273⟩,
   ⟨58, 58, a85, 395⟩,
   ⟨59, 255, a32, 273⟩]

/-- `sip/msg_parse.go:15466` (`st_case_638`). -/
def s638 : List Row :=
  [⟨0, 68, a32, 273⟩,
   ⟨69, 69, a2, 639⟩,
   ⟨70, 100, a32, 273⟩,
   ⟨101, 101, a2, 639⟩,
   ⟨102, 255, a32, 273⟩]

/-- `sip/msg_parse.go:15478` (`st_case_639`). -/
def s639 : List Row :=
  [⟨0, 81, a32, 273⟩,
   ⟨82, 82, a2, 640⟩,
   ⟨83, 113, a32, 273⟩,
   ⟨114, 114, a2, 640⟩,
   ⟨115, 255, a32, 273⟩]

/-- `sip/msg_parse.go:15490` (`st_case_640`). -/
def s640 : List Row :=
  [⟨0, 44, a32, 273⟩,
   ⟨45, 45, a2, 641⟩,
   ⟨46, 81, a32, 273⟩,
   ⟨82, 82, a2, 644⟩,
   ⟨83, 113, a32, 273⟩,
   ⟨114, 114, a2, 644⟩,
   ⟨115, 255, a32, 273⟩]

/-- `sip/msg_parse.go:15504` (`st_case_641`). -/
def s641 : List Row :=
  [⟨0, 83, a32, 273⟩,
   ⟨84, 84, a2, 642⟩,
   ⟨85, 115, a32, 273⟩,
   ⟨116, 116, a2, 642⟩,
   ⟨117, 255, a32, 273⟩]

/-- `sip/msg_parse.go:15516` (`st_case_642`). -/
def s642 : List Row :=
  [⟨0, 78, a32, 273⟩,
   ⟨79, 79, a2, 643⟩,
   ⟨80, 110, a32, 273⟩,
   ⟨111, 111, a2, 643⟩,
   ⟨112, 255, a32, 273⟩]

/-- `sip/msg_parse.go:15528` (`st_case_643`). -/
def s643 : List Row :=
  [⟨0, 8, a32, 273⟩,
   ⟨9, 9, a84, 283⟩,
   ⟨10, 31, a32, 273⟩,
   ⟨32, 32, a84, 283⟩,
   ⟨33, 57, a32, 273⟩,
   ⟨58, 58, a84, 284⟩,
   ⟨59, 255, a32, 273⟩]

/-- `sip/msg_parse.go:15542` (`st_case_644`). -/
def s644 : List Row :=
  [⟨0, 68, a32, 273⟩,
   ⟨69, 69, a2, 645⟩,
   ⟨70, 100, a32, 273⟩,
   ⟨101, 101, a2, 645⟩,
   ⟨102, 255, a32, 273⟩]

/-- `sip/msg_parse.go:15554` (`st_case_645`). -/
def s645 : List Row :=
  [⟨0, 67, a32, 273⟩,
   ⟨68, 68, a2, 646⟩,
   ⟨69, 99, a32, 273⟩,
   ⟨100, 100, a2, 646⟩,
   ⟨101, 255, a32, 273⟩]

/-- `sip/msg_parse.go:15566` (`st_case_646`). -/
def s646 : List Row :=
  [⟨0, 44, a32, 273⟩,
   ⟨45, 45, a2, 647⟩,
   ⟨46, 255, a32, 273⟩]

/-- `sip/msg_parse.go:15575` (`st_case_647`). -/
def s647 : List Row :=
  [⟨0, 65, a32, 273⟩,
   ⟨66, 66, a2, 648⟩,
   ⟨67, 97, a32, 273⟩,
   ⟨98, 98, a2, 648⟩,
   ⟨99, 255, a32, 273⟩]

/-- `sip/msg_parse.go:15587` (`st_case_648`). -/
def s648 : List Row :=
  [⟨0, 88, a32, 273⟩,
   ⟨89, 89, a2, 363⟩,
   ⟨90, 120, a32, 273⟩,
   ⟨121, 121, a2, 363⟩,
   ⟨122, 255, a32, 273⟩]

/-- `sip/msg_parse.go:15599` (`st_case_649`). -/
def s649 : List Row :=
  [⟨0, 78, a32, 273⟩,
   ⟨79, 79, a2, 650⟩,
   ⟨80, 110, a32, 273⟩,
   ⟨111, 111, a2, 650⟩,
   ⟨112, 255, a32, 273⟩]

/-- `sip/msg_parse.go:15611` (`st_case_650`). -/
def s650 : List Row :=
  [⟨0, 83, a32, 273⟩,
   ⟨84, 84, a2, 651⟩,
   ⟨85, 115, a32, 273⟩,
   ⟨116, 116, a2, 651⟩,
   ⟨117, 255, a32, 273⟩]

/-- `sip/msg_parse.go:15623` (`st_case_651`). -/
def s651 : List Row :=
  [⟨0, 68, a32, 273⟩,
   ⟨69, 69, a2, 652⟩,
   ⟨70, 100, a32, 273⟩,
   ⟨101, 101, a2, 652⟩,
   ⟨102, 255, a32, 273⟩]

/-- `sip/msg_parse.go:15635` (`st_case_652`). -/
def s652 : List Row :=
  [⟨0, 44, a32, 273⟩,
   ⟨45, 45, a2, 653⟩,
   ⟨46, 255, a32, 273⟩]

/-- `sip/msg_parse.go:15644` (`st_case_653`). -/
def s653 : List Row :=
  [⟨0, 79, a32, 273⟩,
   ⟨80, 80, a2, 654⟩,
   ⟨81, 111, a32, 273⟩,
   ⟨112, 112, a2, 654⟩,
   ⟨113, 255, a32, 273⟩]

/-- `sip/msg_parse.go:15656` (`st_case_654`). -/
def s654 : List Row :=
  [⟨0, 64, a32, 273⟩,
   ⟨65, 65, a2, 655⟩,
   ⟨66, 96, a32, 273⟩,
   ⟨97, 97, a2, 655⟩,
   ⟨98, 255, a32, 273⟩]

/-- `sip/msg_parse.go:15668` (`st_case_655`). -/
def s655 : List Row :=
  [⟨0, 81, a32, 273⟩,
   ⟨82, 82, a2, 656⟩,
   ⟨83, 113, a32, 273⟩,
   ⟨114, 114, a2, 656⟩,
   ⟨115, 255, a32, 273⟩]

/-- `sip/msg_parse.go:15680` (`st_case_656`). -/
def s656 : List Row :=
  [⟨0, 83, a32, 273⟩,
   ⟨84, 84, a2, 657⟩,
   ⟨85, 115, a32, 273⟩,
   ⟨116, 116, a2, 657⟩,
   ⟨117, 255, a32, 273⟩]

/-- `sip/msg_parse.go:15692` (`st_case_657`). -/
def s657 : List Row :=
  [⟨0, 88, a32, 273⟩,
   ⟨89, 89, a2, 658⟩,
   ⟨90, 120, a32, 273⟩,
   ⟨121, 121, a2, 658⟩,
   ⟨122, 255, a32, 273⟩]

/-- `sip/msg_parse.go:15704` (`st_case_658`). -/
def s658 : List Row :=
  [⟨0, 44, a32, 273⟩,
   ⟨45, 45, a2, 659⟩,
   ⟨46, 255, a32, 273⟩]

/-- `sip/msg_parse.go:15713` (`st_case_659`). -/
def s659 : List Row :=
  [⟨0, 72, a32, 273⟩,
   ⟨73, 73, a2, 660⟩,
   ⟨74, 104, a32, 273⟩,
   ⟨105, 105, a2, 660⟩,
   ⟨106, 255, a32, 273⟩]

/-- `sip/msg_parse.go:15725` (`st_case_660`). -/
def s660 : List Row :=
  [⟨0, 67, a32, 273⟩,
   ⟨68, 68, a2, 661⟩,
   ⟨69, 99, a32, 273⟩,
   ⟨100, 100, a2, 661⟩,
   ⟨101, 255, a32, 273⟩]

/-- `sip/msg_parse.go:15737` (`st_case_661`). -/
def s661 : List Row :=
  [⟨0, 8, a32, 273⟩,
   ⟨9, 9, a86, 394⟩,
   ⟨10, 31, a32, 273⟩,
   ⟨32, 32, a86, 394⟩,
   ⟨33, 57, a32, 273⟩,
   ⟨58, 58, a86, 395⟩,
   ⟨59, 255, a32, 273⟩]

/-- `sip/msg_parse.go:15751` (`st_case_662`). -/
def s662 : List Row :=
  [⟨0, 75, a32, 273⟩,
   ⟨76, 76, a2, 663⟩,
   ⟨77, 107, a32, 273⟩,
   ⟨108, 108, a2, 663⟩,
   ⟨109, 255, a32, 273⟩]

/-- `sip/msg_parse.go:15763` (`st_case_663`). -/
def s663 : List Row :=
  [⟨0, 88, a32, 273⟩,
   ⟨89, 89, a2, 664⟩,
   ⟨90, 120, a32, 273⟩,
   ⟨121, 121, a2, 664⟩,
   ⟨122, 255, a32, 273⟩]

/-- `sip/msg_parse.go:15775` (`st_case_664`). -/
def s664 : List Row :=
  [⟨0, 44, a32, 273⟩,
   ⟨45, 45, a2, 665⟩,
   ⟨46, 255, a32, 273⟩]

/-- `sip/msg_parse.go:15784` (`st_case_665`). -/
def s665 : List Row :=
  [⟨0, 83, a32, 273⟩,
   ⟨84, 84, a2, 666⟩,
   ⟨85, 115, a32, 273⟩,
   ⟨116, 116, a2, 666⟩,
   ⟨117, 255, a32, 273⟩]

/-- `sip/msg_parse.go:15796` (`st_case_666`). -/
def s666 : List Row :=
  [⟨0, 78, a32, 273⟩,
   ⟨79, 79, a2, 667⟩,
   ⟨80, 110, a32, 273⟩,
   ⟨111, 111, a2, 667⟩,
   ⟨112, 255, a32, 273⟩]

/-- `sip/msg_parse.go:15808` (`st_case_667`). -/
def s667 : List Row :=
  [⟨0, 8, a32, 273⟩,
   ⟨9, 9, a87, 283⟩,
   ⟨10, 31, a32, 273⟩,
   ⟨32, 32, a87, 283⟩,
   ⟨33, 57, a32, 273⟩,
   ⟨58, 58, a87, 284⟩,
   ⟨59, 255, a32, 273⟩]

/-- `sip/msg_parse.go:15822` (`st_case_668`). -/
def s668 : List Row :=
  [⟨0, 84, a32, 273⟩,
   ⟨85, 85, a2, 669⟩,
   ⟨86, 116, a32, 273⟩,
   ⟨117, 117, a2, 669⟩,
   ⟨118, 255, a32, 273⟩]

/-- `sip/msg_parse.go:15834` (`st_case_669`). -/
def s669 : List Row :=
  [⟨0, 72, a32, 273⟩,
   ⟨73, 73, a2, 670⟩,
   ⟨74, 104, a32, 273⟩,
   ⟨105, 105, a2, 670⟩,
   ⟨106, 255, a32, 273⟩]

/-- `sip/msg_parse.go:15846` (`st_case_670`). -/
def s670 : List Row :=
  [⟨0, 81, a32, 273⟩,
   ⟨82, 82, a2, 671⟩,
   ⟨83, 113, a32, 273⟩,
   ⟨114, 114, a2, 671⟩,
   ⟨115, 255, a32, 273⟩]

/-- `sip/msg_parse.go:15858` (`st_case_671`). -/
def s671 : List Row :=
  [⟨0, 68, a32, 273⟩,
   ⟨69, 69, a2, 672⟩,
   ⟨70, 100, a32, 273⟩,
   ⟨101, 101, a2, 672⟩,
   ⟨102, 255, a32, 273⟩]

/-- `sip/msg_parse.go:15870` (`st_case_672`). -/
def s672 : List Row :=
  [⟨0, 8, a32, 273⟩,
   ⟨9, 9, a88, 283⟩,
   ⟨10, 31, a32, 273⟩,
   ⟨32, 32, a88, 283⟩,
   ⟨33, 57, a32, 273⟩,
   ⟨58, 58, a88, 284⟩,
   ⟨59, 255, a32, 273⟩]

/-- `sip/msg_parse.go:15884` (`st_case_673`). -/
def s673 : List Row :=
  [⟨0, 81, a32, 273⟩,
   ⟨82, 82, a2, 674⟩,
   ⟨83, 113, a32, 273⟩,
   ⟨114, 114, a2, 674⟩,
   ⟨115, 255, a32, 273⟩]

/-- `sip/msg_parse.go:15896` (`st_case_674`). -/
def s674 : List Row :=
  [⟨0, 88, a32, 273⟩,
   ⟨89, 89, a2, 675⟩,
   ⟨90, 120, a32, 273⟩,
   ⟨121, 121, a2, 675⟩,
   ⟨122, 255, a32, 273⟩]

/-- `sip/msg_parse.go:15908` (`st_case_675`). -/
def s675 : List Row :=
  [⟨0, 44, a32, 273⟩,
   ⟨45, 45, a2, 676⟩,
   ⟨46, 255, a32, 273⟩]

/-- `sip/msg_parse.go:15917` (`st_case_676`). -/
def s676 : List Row :=
  [⟨0, 64, a32, 273⟩,
   ⟨65, 65, a2, 677⟩,
   ⟨66, 96, a32, 273⟩,
   ⟨97, 97, a2, 677⟩,
   ⟨98, 255, a32, 273⟩]

/-- `sip/msg_parse.go:15929` (`st_case_677`). -/
def s677 : List Row :=
  [⟨0, 69, a32, 273⟩,
   ⟨70, 70, a2, 678⟩,
   ⟨71, 101, a32, 273⟩,
   ⟨102, 102, a2, 678⟩,
   ⟨103, 255, a32, 273⟩]

/-- `sip/msg_parse.go:15941` (`st_case_678`). -/
def s678 : List Row :=
  [⟨0, 83, a32, 273⟩,
   ⟨84, 84, a2, 679⟩,
   ⟨85, 115, a32, 273⟩,
   ⟨116, 116, a2, 679⟩,
   ⟨117, 255, a32, 273⟩]

/-- `sip/msg_parse.go:15953` (`st_case_679`). -/
def s679 : List Row :=
  [⟨0, 68, a32, 273⟩,
   ⟨69, 69, a2, 680⟩,
   ⟨70, 100, a32, 273⟩,
   ⟨101, 101, a2, 680⟩,
   ⟨102, 255, a32, 273⟩]

/-- `sip/msg_parse.go:15965` (`st_case_680`). -/
def s680 : List Row :=
  [⟨0, 81, a32, 273⟩,
   ⟨82, 82, a2, 681⟩,
   ⟨83, 113, a32, 273⟩,
   ⟨114, 114, a2, 681⟩,
   ⟨115, 255, a32, 273⟩]

/-- `sip/msg_parse.go:15977` (`st_case_681`). -/
def s681 : List Row :=
  [⟨0, 8, a32, 273⟩,
   ⟨9, 9, a89, 283⟩,
   ⟨10, 31, a32, 273⟩,
   ⟨32, 32, a89, 283⟩,
   ⟨33, 57, a32, 273⟩,
   ⟨58, 58, a89, 284⟩,
   ⟨59, 255, a32, 273⟩]

/-- `sip/msg_parse.go:15991` (`st_case_682`). -/
def s682 : List Row :=
  [⟨0, 84, a32, 273⟩,
   ⟨85, 85, a2, 683⟩,
   ⟨86, 116, a32, 273⟩,
   ⟨117, 117, a2, 683⟩,
   ⟨118, 255, a32, 273⟩]

/-- `sip/msg_parse.go:16003` (`st_case_683`). -/
def s683 : List Row :=
  [⟨0, 83, a32, 273⟩,
   ⟨84, 84, a2, 684⟩,
   ⟨85, 115, a32, 273⟩,
   ⟨116, 116, a2, 684⟩,
   ⟨117, 255, a32, 273⟩]

/-- `sip/msg_parse.go:16015` (`st_case_684`). -/
def s684 : List Row :=
  [⟨0, 68, a32, 273⟩,
   ⟨69, 69, a2, 685⟩,
   ⟨70, 100, a32, 273⟩,
   ⟨101, 101, a2, 685⟩,
   ⟨102, 255, a32, 273⟩]

/-- `sip/msg_parse.go:16027` (`st_case_685`). -/
def s685 : List Row :=
  [⟨0, 8, a32, 273⟩,
   ⟨9, 9, a90, 394⟩,
   ⟨10, 31, a32, 273⟩,
   ⟨32, 32, a90, 394⟩,
   ⟨33, 57, a32, 273⟩,
   ⟨58, 58, a90, 395⟩,
   ⟨59, 255, a32, 273⟩]

/-- `sip/msg_parse.go:16041` (`st_case_686`). -/
def s686 : List Row :=
  [⟨0, 8, a32, 273⟩,
   ⟨9, 9, a91, 283⟩,
   ⟨10, 31, a32, 273⟩,
   ⟨32, 32, a91, 283⟩,
   ⟨33, 57, a32, 273⟩,
   ⟨58, 58, a91, 284⟩,
   ⟨59, 68, a32, 273⟩,
   ⟨69, 69, a2, 687⟩,
   ⟨70, 84, a32, 273⟩,
   ⟨85, 85, a2, 692⟩,
   ⟨86, 100, a32, 273⟩,
   ⟨101, 101, a2, 687⟩,
   ⟨102, 116, a32, 273⟩,
   ⟨117, 117, a2, 692⟩,
   ⟨118, 255, a32, 273⟩]

/-- `sip/msg_parse.go:16063` (`st_case_687`). -/
def s687 : List Row :=
  [⟨0, 81, a32, 273⟩,
   ⟨82, 82, a2, 688⟩,
   ⟨83, 113, a32, 273⟩,
   ⟨114, 114, a2, 688⟩,
   ⟨115, 255, a32, 273⟩]

/-- `sip/msg_parse.go:16075` (`st_case_688`). -/
def s688 : List Row :=
  [⟨0, 85, a32, 273⟩,
   ⟨86, 86, a2, 689⟩,
   ⟨87, 117, a32, 273⟩,
   ⟨118, 118, a2, 689⟩,
   ⟨119, 255, a32, 273⟩]

/-- `sip/msg_parse.go:16087` (`st_case_689`). -/
def s689 : List Row :=
  [⟨0, 68, a32, 273⟩,
   ⟨69, 69, a2, 690⟩,
   ⟨70, 100, a32, 273⟩,
   ⟨101, 101, a2, 690⟩,
   ⟨102, 255, a32, 273⟩]

/-- `sip/msg_parse.go:16099` (`st_case_690`). -/
def s690 : List Row :=
  [⟨0, 81, a32, 273⟩,
   ⟨82, 82, a2, 691⟩,
   ⟨83, 113, a32, 273⟩,
   ⟨114, 114, a2, 691⟩,
   ⟨115, 255, a32, 273⟩]

/-- `sip/msg_parse.go:16111` (`st_case_691`). -/
def s691 : List Row :=
  [⟨0, 8, a32, 273⟩,
   ⟨9, 9, a92, 283⟩,
   ⟨10, 31, a32, 273⟩,
   ⟨32, 32, a92, 283⟩,
   ⟨33, 57, a32, 273⟩,
   ⟨58, 58, a92, 284⟩,
   ⟨59, 255, a32, 273⟩]

/-- `sip/msg_parse.go:16125` (`st_case_692`). -/
def s692 : List Row :=
  [⟨0, 65, a32, 273⟩,
   ⟨66, 66, a2, 693⟩,
   ⟨67, 79, a32, 273⟩,
   ⟨80, 80, a2, 698⟩,
   ⟨81, 97, a32, 273⟩,
   ⟨98, 98, a2, 693⟩,
   ⟨99, 111, a32, 273⟩,
   ⟨112, 112, a2, 698⟩,
   ⟨113, 255, a32, 273⟩]

/-- `sip/msg_parse.go:16141` (`st_case_693`). -/
def s693 : List Row :=
  [⟨0, 73, a32, 273⟩,
   ⟨74, 74, a2, 694⟩,
   ⟨75, 105, a32, 273⟩,
   ⟨106, 106, a2, 694⟩,
   ⟨107, 255, a32, 273⟩]

/-- `sip/msg_parse.go:16153` (`st_case_694`). -/
def s694 : List Row :=
  [⟨0, 68, a32, 273⟩,
   ⟨69, 69, a2, 695⟩,
   ⟨70, 100, a32, 273⟩,
   ⟨101, 101, a2, 695⟩,
   ⟨102, 255, a32, 273⟩]

/-- `sip/msg_parse.go:16165` (`st_case_695`). -/
def s695 : List Row :=
  [⟨0, 66, a32, 273⟩,
   ⟨67, 67, a2, 696⟩,
   ⟨68, 98, a32, 273⟩,
   ⟨99, 99, a2, 696⟩,
   ⟨100, 255, a32, 273⟩]

/-- `sip/msg_parse.go:16177` (`st_case_696`). -/
def s696 : List Row :=
  [⟨0, 83, a32, 273⟩,
   ⟨84, 84, a2, 697⟩,
   ⟨85, 115, a32, 273⟩,
   ⟨116, 116, a2, 697⟩,
   ⟨117, 255, a32, 273⟩]

/-- `sip/msg_parse.go:16189` (`st_case_697`). -/
def s697 : List Row :=
  [⟨0, 8, a32, 273⟩,
   ⟨9, 9, a91, 283⟩,
   ⟨10, 31, a32, 273⟩,
   ⟨32, 32, a91, 283⟩,
   ⟨33, 57, a32, 273⟩,
   ⟨58, 58, a91, 284⟩,
   ⟨59, 255, a32, 273⟩]

/-- `sip/msg_parse.go:16203` (`st_case_698`). -/
def s698 : List Row :=
  [⟨0, 79, a32, 273⟩,
   ⟨80, 80, a2, 699⟩,
   ⟨81, 111, a32, 273⟩,
   ⟨112, 112, a2, 699⟩,
   ⟨113, 255, a32, 273⟩]

/-- `sip/msg_parse.go:16215` (`st_case_699`). -/
def s699 : List Row :=
  [⟨0, 78, a32, 273⟩,
   ⟨79, 79, a2, 700⟩,
   ⟨80, 110, a32, 273⟩,
   ⟨111, 111, a2, 700⟩,
   ⟨112, 255, a32, 273⟩]

/-- `sip/msg_parse.go:16227` (`st_case_700`). -/
def s700 : List Row :=
  [⟨0, 81, a32, 273⟩,
   ⟨82, 82, a2, 701⟩,
   ⟨83, 113, a32, 273⟩,
   ⟨114, 114, a2, 701⟩,
   ⟨115, 255, a32, 273⟩]

/-- `sip/msg_parse.go:16239` (`st_case_701`). -/
def s701 : List Row :=
  [⟨0, 83, a32, 273⟩,
   ⟨84, 84, a2, 702⟩,
   ⟨85, 115, a32, 273⟩,
   ⟨116, 116, a2, 702⟩,
   ⟨117, 255, a32, 273⟩]

/-- `sip/msg_parse.go:16251` (`st_case_702`). -/
def s702 : List Row :=
  [⟨0, 68, a32, 273⟩,
   ⟨69, 69, a2, 703⟩,
   ⟨70, 100, a32, 273⟩,
   ⟨101, 101, a2, 703⟩,
   ⟨102, 255, a32, 273⟩]

/-- `sip/msg_parse.go:16263` (`st_case_703`). -/
def s703 : List Row :=
  [⟨0, 67, a32, 273⟩,
   ⟨68, 68, a2, 504⟩,
   ⟨69, 99, a32, 273⟩,
   ⟨100, 100, a2, 504⟩,
   ⟨101, 255, a32, 273⟩]

/-- `sip/msg_parse.go:16275` (`st_case_704`). -/
def s704 : List Row :=
  [⟨0, 8, a32, 273⟩,
   ⟨9, 9, a93, 394⟩,
   ⟨10, 31, a32, 273⟩,
   ⟨32, 32, a93, 394⟩,
   ⟨33, 57, a32, 273⟩,
   ⟨58, 58, a93, 395⟩,
   ⟨59, 72, a32, 273⟩,
   ⟨73, 73, a2, 705⟩,
   ⟨74, 78, a32, 273⟩,
   ⟨79, 79, a2, 713⟩,
   ⟨80, 104, a32, 273⟩,
   ⟨105, 105, a2, 705⟩,
   ⟨106, 110, a32, 273⟩,
   ⟨111, 111, a2, 713⟩,
   ⟨112, 255, a32, 273⟩]

/-- `sip/msg_parse.go:16297` (`st_case_705`). -/
def s705 : List Row :=
  [⟨0, 76, a32, 273⟩,
   ⟨77, 77, a2, 706⟩,
   ⟨78, 108, a32, 273⟩,
   ⟨109, 109, a2, 706⟩,
   ⟨110, 255, a32, 273⟩]

/-- `sip/msg_parse.go:16309` (`st_case_706`). -/
def s706 : List Row :=
  [⟨0, 68, a32, 273⟩,
   ⟨69, 69, a2, 707⟩,
   ⟨70, 100, a32, 273⟩,
   ⟨101, 101, a2, 707⟩,
   ⟨102, 255, a32, 273⟩]

/-- `sip/msg_parse.go:16321` (`st_case_707`). -/
def s707 : List Row :=
  [⟨0, 82, a32, 273⟩,
   ⟨83, 83, a2, 708⟩,
   ⟨84, 114, a32, 273⟩,
   ⟨115, 115, a2, 708⟩,
   ⟨116, 255, a32, 273⟩]

/-- `sip/msg_parse.go:16333` (`st_case_708`). -/
def s708 : List Row :=
  [⟨0, 83, a32, 273⟩,
   ⟨84, 84, a2, 709⟩,
   ⟨85, 115, a32, 273⟩,
   ⟨116, 116, a2, 709⟩,
   ⟨117, 255, a32, 273⟩]

/-- `sip/msg_parse.go:16345` (`st_case_709`). -/
def s709 : List Row :=
  [⟨0, 64, a32, 273⟩,
   ⟨65, 65, a2, 710⟩,
   ⟨66, 96, a32, 273⟩,
   ⟨97, 97, a2, 710⟩,
   ⟨98, 255, a32, 273⟩]

/-- `sip/msg_parse.go:16357` (`st_case_710`). -/
def s710 : List Row :=
  [⟨0, 76, a32, 273⟩,
   ⟨77, 77, a2, 711⟩,
   ⟨78, 108, a32, 273⟩,
   ⟨109, 109, a2, 711⟩,
   ⟨110, 255, a32, 273⟩]

/-- `sip/msg_parse.go:16369` (`st_case_711`). -/
def s711 : List Row :=
  [⟨0, 79, a32, 273⟩,
   ⟨80, 80, a2, 712⟩,
   ⟨81, 111, a32, 273⟩,
   ⟨112, 112, a2, 712⟩,
   ⟨113, 255, a32, 273⟩]

/-- `sip/msg_parse.go:16381` (`st_case_712`). -/
def s712 : List Row :=
  [⟨0, 8, a32, 273⟩,
   ⟨9, 9, a94, 283⟩,
   ⟨10, 31, a32, 273⟩,
   ⟨32, 32, a94, 283⟩,
   ⟨33, 57, a32, 273⟩,
   ⟨58, 58, a94, 284⟩,
   ⟨59, 255, a32, 273⟩]

/-- `sip/msg_parse.go:16395` (`st_case_713`). -/
def s713 : List Row :=
  [⟨0, 8, a32, 273⟩,
   ⟨9, 9, a93, 394⟩,
   ⟨10, 31, a32, 273⟩,
   ⟨32, 32, a93, 394⟩,
   ⟨33, 57, a32, 273⟩,
   ⟨58, 58, a93, 395⟩,
   ⟨59, 255, a32, 273⟩]

/-- `sip/msg_parse.go:16409` (`st_case_714`). -/
def s714 : List Row :=
  [⟨0, 8, a32, 273⟩,
   ⟨9, 9, a95, 283⟩,
   ⟨10, 31, a32, 273⟩,
   ⟨32, 32, a95, 283⟩,
   ⟨33, 57, a32, 273⟩,
   ⟨58, 58, a95, 284⟩,
   ⟨59, 77, a32, 273⟩,
   ⟨78, 78, a2, 715⟩,
   ⟨79, 82, a32, 273⟩,
   ⟨83, 83, a2, 725⟩,
   ⟨84, 109, a32, 273⟩,
   ⟨110, 110, a2, 715⟩,
   ⟨111, 114, a32, 273⟩,
   ⟨115, 115, a2, 725⟩,
   ⟨116, 255, a32, 273⟩]

/-- `sip/msg_parse.go:16431` (`st_case_715`). -/
def s715 : List Row :=
  [⟨0, 82, a32, 273⟩,
   ⟨83, 83, a2, 716⟩,
   ⟨84, 114, a32, 273⟩,
   ⟨115, 115, a2, 716⟩,
   ⟨116, 255, a32, 273⟩]

/-- `sip/msg_parse.go:16443` (`st_case_716`). -/
def s716 : List Row :=
  [⟨0, 84, a32, 273⟩,
   ⟨85, 85, a2, 717⟩,
   ⟨86, 116, a32, 273⟩,
   ⟨117, 117, a2, 717⟩,
   ⟨118, 255, a32, 273⟩]

/-- `sip/msg_parse.go:16455` (`st_case_717`). -/
def s717 : List Row :=
  [⟨0, 79, a32, 273⟩,
   ⟨80, 80, a2, 718⟩,
   ⟨81, 111, a32, 273⟩,
   ⟨112, 112, a2, 718⟩,
   ⟨113, 255, a32, 273⟩]

/-- `sip/msg_parse.go:16467` (`st_case_718`). -/
def s718 : List Row :=
  [⟨0, 79, a32, 273⟩,
   ⟨80, 80, a2, 719⟩,
   ⟨81, 111, a32, 273⟩,
   ⟨112, 112, a2, 719⟩,
   ⟨113, 255, a32, 273⟩]

/-- `sip/msg_parse.go:16479` (`st_case_719`). -/
def s719 : List Row :=
  [⟨0, 78, a32, 273⟩,
   ⟨79, 79, a2, 720⟩,
   ⟨80, 110, a32, 273⟩,
   ⟨111, 111, a2, 720⟩,
   ⟨112, 255, a32, 273⟩]

/-- `sip/msg_parse.go:16491` (`st_case_720`). -/
def s720 : List Row :=
  [⟨0, 81, a32, 273⟩,
   ⟨82, 82, a2, 721⟩,
   ⟨83, 113, a32, 273⟩,
   ⟨114, 114, a2, 721⟩,
   ⟨115, 255, a32, 273⟩]

/-- `sip/msg_parse.go:16503` (`st_case_721`). -/
def s721 : List Row :=
  [⟨0, 83, a32, 273⟩,
   ⟨84, 84, a2, 722⟩,
   ⟨85, 115, a32, 273⟩,
   ⟨116, 116, a2, 722⟩,
   ⟨117, 255, a32, 273⟩]

/-- `sip/msg_parse.go:16515` (`st_case_722`). -/
def s722 : List Row :=
  [⟨0, 68, a32, 273⟩,
   ⟨69, 69, a2, 723⟩,
   ⟨70, 100, a32, 273⟩,
   ⟨101, 101, a2, 723⟩,
   ⟨102, 255, a32, 273⟩]

/-- `sip/msg_parse.go:16527` (`st_case_723`). -/
def s723 : List Row :=
  [⟨0, 67, a32, 273⟩,
   ⟨68, 68, a2, 724⟩,
   ⟨69, 99, a32, 273⟩,
   ⟨100, 100, a2, 724⟩,
   ⟨101, 255, a32, 273⟩]

/-- `sip/msg_parse.go:16539` (`st_case_724`). -/
def s724 : List Row :=
  [⟨0, 8, a32, 273⟩,
   ⟨9, 9, a96, 283⟩,
   ⟨10, 31, a32, 273⟩,
   ⟨32, 32, a96, 283⟩,
   ⟨33, 57, a32, 273⟩,
   ⟨58, 58, a96, 284⟩,
   ⟨59, 255, a32, 273⟩]

/-- `sip/msg_parse.go:16553` (`st_case_725`). -/
def s725 : List Row :=
  [⟨0, 68, a32, 273⟩,
   ⟨69, 69, a2, 726⟩,
   ⟨70, 100, a32, 273⟩,
   ⟨101, 101, a2, 726⟩,
   ⟨102, 255, a32, 273⟩]

/-- `sip/msg_parse.go:16565` (`st_case_726`). -/
def s726 : List Row :=
  [⟨0, 81, a32, 273⟩,
   ⟨82, 82, a2, 727⟩,
   ⟨83, 113, a32, 273⟩,
   ⟨114, 114, a2, 727⟩,
   ⟨115, 255, a32, 273⟩]

/-- `sip/msg_parse.go:16577` (`st_case_727`). -/
def s727 : List Row :=
  [⟨0, 44, a32, 273⟩,
   ⟨45, 45, a2, 728⟩,
   ⟨46, 255, a32, 273⟩]

/-- `sip/msg_parse.go:16586` (`st_case_728`). -/
def s728 : List Row :=
  [⟨0, 64, a32, 273⟩,
   ⟨65, 65, a2, 729⟩,
   ⟨66, 96, a32, 273⟩,
   ⟨97, 97, a2, 729⟩,
   ⟨98, 255, a32, 273⟩]

/-- `sip/msg_parse.go:16598` (`st_case_729`). -/
def s729 : List Row :=
  [⟨0, 70, a32, 273⟩,
   ⟨71, 71, a2, 730⟩,
   ⟨72, 102, a32, 273⟩,
   ⟨103, 103, a2, 730⟩,
   ⟨104, 255, a32, 273⟩]

/-- `sip/msg_parse.go:16610` (`st_case_730`). -/
def s730 : List Row :=
  [⟨0, 68, a32, 273⟩,
   ⟨69, 69, a2, 731⟩,
   ⟨70, 100, a32, 273⟩,
   ⟨101, 101, a2, 731⟩,
   ⟨102, 255, a32, 273⟩]

/-- `sip/msg_parse.go:16622` (`st_case_731`). -/
def s731 : List Row :=
  [⟨0, 77, a32, 273⟩,
   ⟨78, 78, a2, 732⟩,
   ⟨79, 109, a32, 273⟩,
   ⟨110, 110, a2, 732⟩,
   ⟨111, 255, a32, 273⟩]

/-- `sip/msg_parse.go:16634` (`st_case_732`). -/
def s732 : List Row :=
  [⟨0, 83, a32, 273⟩,
   ⟨84, 84, a2, 733⟩,
   ⟨85, 115, a32, 273⟩,
   ⟨116, 116, a2, 733⟩,
   ⟨117, 255, a32, 273⟩]

/-- `sip/msg_parse.go:16646` (`st_case_733`). -/
def s733 : List Row :=
  [⟨0, 8, a32, 273⟩,
   ⟨9, 9, a97, 283⟩,
   ⟨10, 31, a32, 273⟩,
   ⟨32, 32, a97, 283⟩,
   ⟨33, 57, a32, 273⟩,
   ⟨58, 58, a97, 284⟩,
   ⟨59, 255, a32, 273⟩]

/-- `sip/msg_parse.go:16660` (`st_case_734`). -/
def s734 : List Row :=
  [⟨0, 8, a32, 273⟩,
   ⟨9, 9, a2, 735⟩,
   ⟨10, 31, a32, 273⟩,
   ⟨32, 32, a2, 735⟩,
   ⟨33, 57, a32, 273⟩,
   ⟨58, 58, a2, 736⟩,
   ⟨59, 72, a32, 273⟩,
   ⟨73, 73, a2, 740⟩,
   ⟨74, 104, a32, 273⟩,
   ⟨105, 105, a2, 740⟩,
   ⟨106, 255, a32, 273⟩]

/-- `sip/msg_parse.go:16678` (`st_case_735`). -/
def s735 : List Row :=
  [⟨9, 9, a2, 735⟩,
   ⟨32, 32, a2, 735⟩,
   ⟨58, 58, a2, 736⟩]

/-- `sip/msg_parse.go:16692` (`st_case_736`). -/
def s736 : List Row :=
  [⟨0, 8, a98, 103⟩,
   ⟨9, 9, a2, 736⟩,
   ⟨10, 12, a98, 103⟩,
   ⟨14, 31, a98, 103⟩,
   ⟨32, 32, a2, 736⟩,
   ⟨33, 255, a98, 103⟩,
   ⟨269, 269, a98, 103⟩,
   ⟨525, 525, a2, 737⟩]

/-- `sip/msg_parse.go:16723` (`st_case_737`). -/
def s737 : List Row :=
  [⟨10, 10, a2, 738⟩]

/-- `sip/msg_parse.go:16732` (`st_case_738`). -/
def s738 : List Row :=
  [⟨9, 9, a2, 739⟩,
   ⟨32, 32, a2, 739⟩]

/-- `sip/msg_parse.go:16744` (`st_case_739`). -/
def s739 : List Row :=
  [⟨0, 8, a98, 103⟩,
   ⟨9, 9, a2, 739⟩,
   ⟨10, 31, a98, 103⟩,
   ⟨32, 32, a2, 739⟩,
   ⟨33, 255, a98, 103⟩]

/-- `sip/msg_parse.go:16756` (`st_case_740`). -/
def s740 : List Row :=
  [⟨0, 64, a32, 273⟩,
   ⟨65, 65, a2, 741⟩,
   ⟨66, 96, a32, 273⟩,
   ⟨97, 97, a2, 741⟩,
   ⟨98, 255, a32, 273⟩]

/-- `sip/msg_parse.go:16768` (`st_case_741`). -/
def s741 : List Row :=
  [⟨0, 8, a32, 273⟩,
   ⟨9, 9, a2, 735⟩,
   ⟨10, 31, a32, 273⟩,
   ⟨32, 32, a2, 735⟩,
   ⟨33, 57, a32, 273⟩,
   ⟨58, 58, a2, 736⟩,
   ⟨59, 255, a32, 273⟩]

/-- `sip/msg_parse.go:16782` (`st_case_742`). -/
def s742 : List Row :=
  [⟨0, 64, a32, 273⟩,
   ⟨65, 65, a2, 743⟩,
   ⟨66, 86, a32, 273⟩,
   ⟨87, 87, a2, 749⟩,
   ⟨88, 96, a32, 273⟩,
   ⟨97, 97, a2, 743⟩,
   ⟨98, 118, a32, 273⟩,
   ⟨119, 119, a2, 749⟩,
   ⟨120, 255, a32, 273⟩]

/-- `sip/msg_parse.go:16798` (`st_case_743`). -/
def s743 : List Row :=
  [⟨0, 81, a32, 273⟩,
   ⟨82, 82, a2, 744⟩,
   ⟨83, 113, a32, 273⟩,
   ⟨114, 114, a2, 744⟩,
   ⟨115, 255, a32, 273⟩]

/-- `sip/msg_parse.go:16810` (`st_case_744`). -/
def s744 : List Row :=
  [⟨0, 77, a32, 273⟩,
   ⟨78, 78, a2, 745⟩,
   ⟨79, 109, a32, 273⟩,
   ⟨110, 110, a2, 745⟩,
   ⟨111, 255, a32, 273⟩]

/-- `sip/msg_parse.go:16822` (`st_case_745`). -/
def s745 : List Row :=
  [⟨0, 72, a32, 273⟩,
   ⟨73, 73, a2, 746⟩,
   ⟨74, 104, a32, 273⟩,
   ⟨105, 105, a2, 746⟩,
   ⟨106, 255, a32, 273⟩]

/-- `sip/msg_parse.go:16834` (`st_case_746`). -/
def s746 : List Row :=
  [⟨0, 77, a32, 273⟩,
   ⟨78, 78, a2, 747⟩,
   ⟨79, 109, a32, 273⟩,
   ⟨110, 110, a2, 747⟩,
   ⟨111, 255, a32, 273⟩]

/-- `sip/msg_parse.go:16846` (`st_case_747`). -/
def s747 : List Row :=
  [⟨0, 70, a32, 273⟩,
   ⟨71, 71, a2, 748⟩,
   ⟨72, 102, a32, 273⟩,
   ⟨103, 103, a2, 748⟩,
   ⟨104, 255, a32, 273⟩]

/-- `sip/msg_parse.go:16858` (`st_case_748`). -/
def s748 : List Row :=
  [⟨0, 8, a32, 273⟩,
   ⟨9, 9, a99, 283⟩,
   ⟨10, 31, a32, 273⟩,
   ⟨32, 32, a99, 283⟩,
   ⟨33, 57, a32, 273⟩,
   ⟨58, 58, a99, 284⟩,
   ⟨59, 255, a32, 273⟩]

/-- `sip/msg_parse.go:16872` (`st_case_749`). -/
def s749 : List Row :=
  [⟨0, 86, a32, 273⟩,
   ⟨87, 87, a2, 750⟩,
   ⟨88, 118, a32, 273⟩,
   ⟨119, 119, a2, 750⟩,
   ⟨120, 255, a32, 273⟩]

/-- `sip/msg_parse.go:16884` (`st_case_750`). -/
def s750 : List Row :=
  [⟨0, 44, a32, 273⟩,
   ⟨45, 45, a2, 751⟩,
   ⟨46, 255, a32, 273⟩]

/-- `sip/msg_parse.go:16893` (`st_case_751`). -/
def s751 : List Row :=
  [⟨0, 64, a32, 273⟩,
   ⟨65, 65, a2, 752⟩,
   ⟨66, 96, a32, 273⟩,
   ⟨97, 97, a2, 752⟩,
   ⟨98, 255, a32, 273⟩]

/-- `sip/msg_parse.go:16905` (`st_case_752`). -/
def s752 : List Row :=
  [⟨0, 84, a32, 273⟩,
   ⟨85, 85, a2, 753⟩,
   ⟨86, 116, a32, 273⟩,
   ⟨117, 117, a2, 753⟩,
   ⟨118, 255, a32, 273⟩]

/-- `sip/msg_parse.go:16917` (`st_case_753`). -/
def s753 : List Row :=
  [⟨0, 83, a32, 273⟩,
   ⟨84, 84, a2, 754⟩,
   ⟨85, 115, a32, 273⟩,
   ⟨116, 116, a2, 754⟩,
   ⟨117, 255, a32, 273⟩]

/-- `sip/msg_parse.go:16929` (`st_case_754`). -/
def s754 : List Row :=
  [⟨0, 71, a32, 273⟩,
   ⟨72, 72, a2, 755⟩,
   ⟨73, 103, a32, 273⟩,
   ⟨104, 104, a2, 755⟩,
   ⟨105, 255, a32, 273⟩]

/-- `sip/msg_parse.go:16941` (`st_case_755`). -/
def s755 : List Row :=
  [⟨0, 68, a32, 273⟩,
   ⟨69, 69, a2, 756⟩,
   ⟨70, 100, a32, 273⟩,
   ⟨101, 101, a2, 756⟩,
   ⟨102, 255, a32, 273⟩]

/-- `sip/msg_parse.go:16953` (`st_case_756`). -/
def s756 : List Row :=
  [⟨0, 77, a32, 273⟩,
   ⟨78, 78, a2, 757⟩,
   ⟨79, 109, a32, 273⟩,
   ⟨110, 110, a2, 757⟩,
   ⟨111, 255, a32, 273⟩]

/-- `sip/msg_parse.go:16965` (`st_case_757`). -/
def s757 : List Row :=
  [⟨0, 83, a32, 273⟩,
   ⟨84, 84, a2, 758⟩,
   ⟨85, 115, a32, 273⟩,
   ⟨116, 116, a2, 758⟩,
   ⟨117, 255, a32, 273⟩]

/-- `sip/msg_parse.go:16977` (`st_case_758`). -/
def s758 : List Row :=
  [⟨0, 72, a32, 273⟩,
   ⟨73, 73, a2, 759⟩,
   ⟨74, 104, a32, 273⟩,
   ⟨105, 105, a2, 759⟩,
   ⟨106, 255, a32, 273⟩]

/-- `sip/msg_parse.go:16989` (`st_case_759`). -/
def s759 : List Row :=
  [⟨0, 66, a32, 273⟩,
   ⟨67, 67, a2, 760⟩,
   ⟨68, 98, a32, 273⟩,
   ⟨99, 99, a2, 760⟩,
   ⟨100, 255, a32, 273⟩]

/-- `sip/msg_parse.go:17001` (`st_case_760`). -/
def s760 : List Row :=
  [⟨0, 64, a32, 273⟩,
   ⟨65, 65, a2, 761⟩,
   ⟨66, 96, a32, 273⟩,
   ⟨97, 97, a2, 761⟩,
   ⟨98, 255, a32, 273⟩]

/-- `sip/msg_parse.go:17013` (`st_case_761`). -/
def s761 : List Row :=
  [⟨0, 83, a32, 273⟩,
   ⟨84, 84, a2, 762⟩,
   ⟨85, 115, a32, 273⟩,
   ⟨116, 116, a2, 762⟩,
   ⟨117, 255, a32, 273⟩]

/-- `sip/msg_parse.go:17025` (`st_case_762`). -/
def s762 : List Row :=
  [⟨0, 68, a32, 273⟩,
   ⟨69, 69, a2, 763⟩,
   ⟨70, 100, a32, 273⟩,
   ⟨101, 101, a2, 763⟩,
   ⟨102, 255, a32, 273⟩]

/-- `sip/msg_parse.go:17037` (`st_case_763`). -/
def s763 : List Row :=
  [⟨0, 8, a32, 273⟩,
   ⟨9, 9, a100, 283⟩,
   ⟨10, 31, a32, 273⟩,
   ⟨32, 32, a100, 283⟩,
   ⟨33, 57, a32, 273⟩,
   ⟨58, 58, a100, 284⟩,
   ⟨59, 255, a32, 273⟩]

/-- `sip/msg_parse.go:17051` (`st_case_764`). -/
def s764 : List Row :=
  [⟨10, 10, a2, 781⟩]

/-- Rows of state `k` (0 for the error state, which has no transition). -/
def rows (k : Nat) : List Row :=
  bif Nat.blt k 383 then
    bif Nat.blt k 191 then
      bif Nat.blt k 95 then
        bif Nat.blt k 47 then
          bif Nat.blt k 23 then
            bif Nat.blt k 11 then
              bif Nat.blt k 5 then
                bif Nat.blt k 2 then
                  bif Nat.blt k 1 then
                    []
                  else
                    s1
                else
                  bif Nat.blt k 3 then
                    s2
                  else
                    bif Nat.blt k 4 then
                      s3
                    else
                      s4
              else
                bif Nat.blt k 8 then
                  bif Nat.blt k 6 then
                    s5
                  else
                    bif Nat.blt k 7 then
                      s6
                    else
                      s7
                else
                  bif Nat.blt k 9 then
                    s8
                  else
                    bif Nat.blt k 10 then
                      s9
                    else
                      s10
            else
              bif Nat.blt k 17 then
                bif Nat.blt k 14 then
                  bif Nat.blt k 12 then
                    s11
                  else
                    bif Nat.blt k 13 then
                      s12
                    else
                      s13
                else
                  bif Nat.blt k 15 then
                    s14
                  else
                    bif Nat.blt k 16 then
                      s15
                    else
                      s16
              else
                bif Nat.blt k 20 then
                  bif Nat.blt k 18 then
                    s17
                  else
                    bif Nat.blt k 19 then
                      s18
                    else
                      s19
                else
                  bif Nat.blt k 21 then
                    s20
                  else
                    bif Nat.blt k 22 then
                      s21
                    else
                      s22
          else
            bif Nat.blt k 35 then
              bif Nat.blt k 29 then
                bif Nat.blt k 26 then
                  bif Nat.blt k 24 then
                    s23
                  else
                    bif Nat.blt k 25 then
                      s24
                    else
                      s25
                else
                  bif Nat.blt k 27 then
                    s26
                  else
                    bif Nat.blt k 28 then
                      s27
                    else
                      s28
              else
                bif Nat.blt k 32 then
                  bif Nat.blt k 30 then
                    s29
                  else
                    bif Nat.blt k 31 then
                      s30
                    else
                      s31
                else
                  bif Nat.blt k 33 then
                    s32
                  else
                    bif Nat.blt k 34 then
                      s33
                    else
                      s34
            else
              bif Nat.blt k 41 then
                bif Nat.blt k 38 then
                  bif Nat.blt k 36 then
                    s35
                  else
                    bif Nat.blt k 37 then
                      s36
                    else
                      s37
                else
                  bif Nat.blt k 39 then
                    s38
                  else
                    bif Nat.blt k 40 then
                      s39
                    else
                      s40
              else
                bif Nat.blt k 44 then
                  bif Nat.blt k 42 then
                    s41
                  else
                    bif Nat.blt k 43 then
                      s42
                    else
                      s43
                else
                  bif Nat.blt k 45 then
                    s44
                  else
                    bif Nat.blt k 46 then
                      s45
                    else
                      s46
        else
          bif Nat.blt k 71 then
            bif Nat.blt k 59 then
              bif Nat.blt k 53 then
                bif Nat.blt k 50 then
                  bif Nat.blt k 48 then
                    s47
                  else
                    bif Nat.blt k 49 then
                      s48
                    else
                      s49
                else
                  bif Nat.blt k 51 then
                    s50
                  else
                    bif Nat.blt k 52 then
                      s51
                    else
                      s52
              else
                bif Nat.blt k 56 then
                  bif Nat.blt k 54 then
                    s53
                  else
                    bif Nat.blt k 55 then
                      s54
                    else
                      s55
                else
                  bif Nat.blt k 57 then
                    s56
                  else
                    bif Nat.blt k 58 then
                      s57
                    else
                      s58
            else
              bif Nat.blt k 65 then
                bif Nat.blt k 62 then
                  bif Nat.blt k 60 then
                    s59
                  else
                    bif Nat.blt k 61 then
                      s60
                    else
                      s61
                else
                  bif Nat.blt k 63 then
                    s62
                  else
                    bif Nat.blt k 64 then
                      s63
                    else
                      s64
              else
                bif Nat.blt k 68 then
                  bif Nat.blt k 66 then
                    s65
                  else
                    bif Nat.blt k 67 then
                      s66
                    else
                      s67
                else
                  bif Nat.blt k 69 then
                    s68
                  else
                    bif Nat.blt k 70 then
                      s69
                    else
                      s70
          else
            bif Nat.blt k 83 then
              bif Nat.blt k 77 then
                bif Nat.blt k 74 then
                  bif Nat.blt k 72 then
                    s71
                  else
                    bif Nat.blt k 73 then
                      s72
                    else
                      s73
                else
                  bif Nat.blt k 75 then
                    s74
                  else
                    bif Nat.blt k 76 then
                      s75
                    else
                      s76
              else
                bif Nat.blt k 80 then
                  bif Nat.blt k 78 then
                    s77
                  else
                    bif Nat.blt k 79 then
                      s78
                    else
                      s79
                else
                  bif Nat.blt k 81 then
                    s80
                  else
                    bif Nat.blt k 82 then
                      s81
                    else
                      s82
            else
              bif Nat.blt k 89 then
                bif Nat.blt k 86 then
                  bif Nat.blt k 84 then
                    s83
                  else
                    bif Nat.blt k 85 then
                      s84
                    else
                      s85
                else
                  bif Nat.blt k 87 then
                    s86
                  else
                    bif Nat.blt k 88 then
                      s87
                    else
                      s88
              else
                bif Nat.blt k 92 then
                  bif Nat.blt k 90 then
                    s89
                  else
                    bif Nat.blt k 91 then
                      s90
                    else
                      s91
                else
                  bif Nat.blt k 93 then
                    s92
                  else
                    bif Nat.blt k 94 then
                      s93
                    else
                      s94
      else
        bif Nat.blt k 143 then
          bif Nat.blt k 119 then
            bif Nat.blt k 107 then
              bif Nat.blt k 101 then
                bif Nat.blt k 98 then
                  bif Nat.blt k 96 then
                    s95
                  else
                    bif Nat.blt k 97 then
                      s96
                    else
                      s97
                else
                  bif Nat.blt k 99 then
                    s98
                  else
                    bif Nat.blt k 100 then
                      s99
                    else
                      s100
              else
                bif Nat.blt k 104 then
                  bif Nat.blt k 102 then
                    s101
                  else
                    bif Nat.blt k 103 then
                      s102
                    else
                      s103
                else
                  bif Nat.blt k 105 then
                    s104
                  else
                    bif Nat.blt k 106 then
                      s105
                    else
                      s106
            else
              bif Nat.blt k 113 then
                bif Nat.blt k 110 then
                  bif Nat.blt k 108 then
                    s107
                  else
                    bif Nat.blt k 109 then
                      s108
                    else
                      s109
                else
                  bif Nat.blt k 111 then
                    s110
                  else
                    bif Nat.blt k 112 then
                      s111
                    else
                      s112
              else
                bif Nat.blt k 116 then
                  bif Nat.blt k 114 then
                    s113
                  else
                    bif Nat.blt k 115 then
                      s114
                    else
                      s115
                else
                  bif Nat.blt k 117 then
                    s116
                  else
                    bif Nat.blt k 118 then
                      s117
                    else
                      s118
          else
            bif Nat.blt k 131 then
              bif Nat.blt k 125 then
                bif Nat.blt k 122 then
                  bif Nat.blt k 120 then
                    s119
                  else
                    bif Nat.blt k 121 then
                      s120
                    else
                      s121
                else
                  bif Nat.blt k 123 then
                    s122
                  else
                    bif Nat.blt k 124 then
                      s123
                    else
                      s124
              else
                bif Nat.blt k 128 then
                  bif Nat.blt k 126 then
                    s125
                  else
                    bif Nat.blt k 127 then
                      s126
                    else
                      s127
                else
                  bif Nat.blt k 129 then
                    s128
                  else
                    bif Nat.blt k 130 then
                      s129
                    else
                      s130
            else
              bif Nat.blt k 137 then
                bif Nat.blt k 134 then
                  bif Nat.blt k 132 then
                    s131
                  else
                    bif Nat.blt k 133 then
                      s132
                    else
                      s133
                else
                  bif Nat.blt k 135 then
                    s134
                  else
                    bif Nat.blt k 136 then
                      s135
                    else
                      s136
              else
                bif Nat.blt k 140 then
                  bif Nat.blt k 138 then
                    s137
                  else
                    bif Nat.blt k 139 then
                      s138
                    else
                      s139
                else
                  bif Nat.blt k 141 then
                    s140
                  else
                    bif Nat.blt k 142 then
                      s141
                    else
                      s142
        else
          bif Nat.blt k 167 then
            bif Nat.blt k 155 then
              bif Nat.blt k 149 then
                bif Nat.blt k 146 then
                  bif Nat.blt k 144 then
                    s143
                  else
                    bif Nat.blt k 145 then
                      s144
                    else
                      s145
                else
                  bif Nat.blt k 147 then
                    s146
                  else
                    bif Nat.blt k 148 then
                      s147
                    else
                      s148
              else
                bif Nat.blt k 152 then
                  bif Nat.blt k 150 then
                    s149
                  else
                    bif Nat.blt k 151 then
                      s150
                    else
                      s151
                else
                  bif Nat.blt k 153 then
                    s152
                  else
                    bif Nat.blt k 154 then
                      s153
                    else
                      s154
            else
              bif Nat.blt k 161 then
                bif Nat.blt k 158 then
                  bif Nat.blt k 156 then
                    s155
                  else
                    bif Nat.blt k 157 then
                      s156
                    else
                      s157
                else
                  bif Nat.blt k 159 then
                    s158
                  else
                    bif Nat.blt k 160 then
                      s159
                    else
                      s160
              else
                bif Nat.blt k 164 then
                  bif Nat.blt k 162 then
                    s161
                  else
                    bif Nat.blt k 163 then
                      s162
                    else
                      s163
                else
                  bif Nat.blt k 165 then
                    s164
                  else
                    bif Nat.blt k 166 then
                      s165
                    else
                      s166
          else
            bif Nat.blt k 179 then
              bif Nat.blt k 173 then
                bif Nat.blt k 170 then
                  bif Nat.blt k 168 then
                    s167
                  else
                    bif Nat.blt k 169 then
                      s168
                    else
                      s169
                else
                  bif Nat.blt k 171 then
                    s170
                  else
                    bif Nat.blt k 172 then
                      s171
                    else
                      s172
              else
                bif Nat.blt k 176 then
                  bif Nat.blt k 174 then
                    s173
                  else
                    bif Nat.blt k 175 then
                      s174
                    else
                      s175
                else
                  bif Nat.blt k 177 then
                    s176
                  else
                    bif Nat.blt k 178 then
                      s177
                    else
                      s178
            else
              bif Nat.blt k 185 then
                bif Nat.blt k 182 then
                  bif Nat.blt k 180 then
                    s179
                  else
                    bif Nat.blt k 181 then
                      s180
                    else
                      s181
                else
                  bif Nat.blt k 183 then
                    s182
                  else
                    bif Nat.blt k 184 then
                      s183
                    else
                      s184
              else
                bif Nat.blt k 188 then
                  bif Nat.blt k 186 then
                    s185
                  else
                    bif Nat.blt k 187 then
                      s186
                    else
                      s187
                else
                  bif Nat.blt k 189 then
                    s188
                  else
                    bif Nat.blt k 190 then
                      s189
                    else
                      s190
    else
      bif Nat.blt k 287 then
        bif Nat.blt k 239 then
          bif Nat.blt k 215 then
            bif Nat.blt k 203 then
              bif Nat.blt k 197 then
                bif Nat.blt k 194 then
                  bif Nat.blt k 192 then
                    s191
                  else
                    bif Nat.blt k 193 then
                      s192
                    else
                      s193
                else
                  bif Nat.blt k 195 then
                    s194
                  else
                    bif Nat.blt k 196 then
                      s195
                    else
                      s196
              else
                bif Nat.blt k 200 then
                  bif Nat.blt k 198 then
                    s197
                  else
                    bif Nat.blt k 199 then
                      s198
                    else
                      s199
                else
                  bif Nat.blt k 201 then
                    s200
                  else
                    bif Nat.blt k 202 then
                      s201
                    else
                      s202
            else
              bif Nat.blt k 209 then
                bif Nat.blt k 206 then
                  bif Nat.blt k 204 then
                    s203
                  else
                    bif Nat.blt k 205 then
                      s204
                    else
                      s205
                else
                  bif Nat.blt k 207 then
                    s206
                  else
                    bif Nat.blt k 208 then
                      s207
                    else
                      s208
              else
                bif Nat.blt k 212 then
                  bif Nat.blt k 210 then
                    s209
                  else
                    bif Nat.blt k 211 then
                      s210
                    else
                      s211
                else
                  bif Nat.blt k 213 then
                    s212
                  else
                    bif Nat.blt k 214 then
                      s213
                    else
                      s214
          else
            bif Nat.blt k 227 then
              bif Nat.blt k 221 then
                bif Nat.blt k 218 then
                  bif Nat.blt k 216 then
                    s215
                  else
                    bif Nat.blt k 217 then
                      s216
                    else
                      s217
                else
                  bif Nat.blt k 219 then
                    s218
                  else
                    bif Nat.blt k 220 then
                      s219
                    else
                      s220
              else
                bif Nat.blt k 224 then
                  bif Nat.blt k 222 then
                    s221
                  else
                    bif Nat.blt k 223 then
                      s222
                    else
                      s223
                else
                  bif Nat.blt k 225 then
                    s224
                  else
                    bif Nat.blt k 226 then
                      s225
                    else
                      s226
            else
              bif Nat.blt k 233 then
                bif Nat.blt k 230 then
                  bif Nat.blt k 228 then
                    s227
                  else
                    bif Nat.blt k 229 then
                      s228
                    else
                      s229
                else
                  bif Nat.blt k 231 then
                    s230
                  else
                    bif Nat.blt k 232 then
                      s231
                    else
                      s232
              else
                bif Nat.blt k 236 then
                  bif Nat.blt k 234 then
                    s233
                  else
                    bif Nat.blt k 235 then
                      s234
                    else
                      s235
                else
                  bif Nat.blt k 237 then
                    s236
                  else
                    bif Nat.blt k 238 then
                      s237
                    else
                      s238
        else
          bif Nat.blt k 263 then
            bif Nat.blt k 251 then
              bif Nat.blt k 245 then
                bif Nat.blt k 242 then
                  bif Nat.blt k 240 then
                    s239
                  else
                    bif Nat.blt k 241 then
                      s240
                    else
                      s241
                else
                  bif Nat.blt k 243 then
                    s242
                  else
                    bif Nat.blt k 244 then
                      s243
                    else
                      s244
              else
                bif Nat.blt k 248 then
                  bif Nat.blt k 246 then
                    s245
                  else
                    bif Nat.blt k 247 then
                      s246
                    else
                      s247
                else
                  bif Nat.blt k 249 then
                    s248
                  else
                    bif Nat.blt k 250 then
                      s249
                    else
                      s250
            else
              bif Nat.blt k 257 then
                bif Nat.blt k 254 then
                  bif Nat.blt k 252 then
                    s251
                  else
                    bif Nat.blt k 253 then
                      s252
                    else
                      s253
                else
                  bif Nat.blt k 255 then
                    s254
                  else
                    bif Nat.blt k 256 then
                      s255
                    else
                      s256
              else
                bif Nat.blt k 260 then
                  bif Nat.blt k 258 then
                    s257
                  else
                    bif Nat.blt k 259 then
                      s258
                    else
                      s259
                else
                  bif Nat.blt k 261 then
                    s260
                  else
                    bif Nat.blt k 262 then
                      s261
                    else
                      s262
          else
            bif Nat.blt k 275 then
              bif Nat.blt k 269 then
                bif Nat.blt k 266 then
                  bif Nat.blt k 264 then
                    s263
                  else
                    bif Nat.blt k 265 then
                      s264
                    else
                      s265
                else
                  bif Nat.blt k 267 then
                    s266
                  else
                    bif Nat.blt k 268 then
                      s267
                    else
                      s268
              else
                bif Nat.blt k 272 then
                  bif Nat.blt k 270 then
                    s269
                  else
                    bif Nat.blt k 271 then
                      s270
                    else
                      s271
                else
                  bif Nat.blt k 273 then
                    s272
                  else
                    bif Nat.blt k 274 then
                      s273
                    else
                      s274
            else
              bif Nat.blt k 281 then
                bif Nat.blt k 278 then
                  bif Nat.blt k 276 then
                    s275
                  else
                    bif Nat.blt k 277 then
                      s276
                    else
                      s277
                else
                  bif Nat.blt k 279 then
                    s278
                  else
                    bif Nat.blt k 280 then
                      s279
                    else
                      s280
              else
                bif Nat.blt k 284 then
                  bif Nat.blt k 282 then
                    s281
                  else
                    bif Nat.blt k 283 then
                      s282
                    else
                      s283
                else
                  bif Nat.blt k 285 then
                    s284
                  else
                    bif Nat.blt k 286 then
                      s285
                    else
                      s286
      else
        bif Nat.blt k 335 then
          bif Nat.blt k 311 then
            bif Nat.blt k 299 then
              bif Nat.blt k 293 then
                bif Nat.blt k 290 then
                  bif Nat.blt k 288 then
                    s287
                  else
                    bif Nat.blt k 289 then
                      s288
                    else
                      s289
                else
                  bif Nat.blt k 291 then
                    s290
                  else
                    bif Nat.blt k 292 then
                      s291
                    else
                      s292
              else
                bif Nat.blt k 296 then
                  bif Nat.blt k 294 then
                    s293
                  else
                    bif Nat.blt k 295 then
                      s294
                    else
                      s295
                else
                  bif Nat.blt k 297 then
                    s296
                  else
                    bif Nat.blt k 298 then
                      s297
                    else
                      s298
            else
              bif Nat.blt k 305 then
                bif Nat.blt k 302 then
                  bif Nat.blt k 300 then
                    s299
                  else
                    bif Nat.blt k 301 then
                      s300
                    else
                      s301
                else
                  bif Nat.blt k 303 then
                    s302
                  else
                    bif Nat.blt k 304 then
                      s303
                    else
                      s304
              else
                bif Nat.blt k 308 then
                  bif Nat.blt k 306 then
                    s305
                  else
                    bif Nat.blt k 307 then
                      s306
                    else
                      s307
                else
                  bif Nat.blt k 309 then
                    s308
                  else
                    bif Nat.blt k 310 then
                      s309
                    else
                      s310
          else
            bif Nat.blt k 323 then
              bif Nat.blt k 317 then
                bif Nat.blt k 314 then
                  bif Nat.blt k 312 then
                    s311
                  else
                    bif Nat.blt k 313 then
                      s312
                    else
                      s313
                else
                  bif Nat.blt k 315 then
                    s314
                  else
                    bif Nat.blt k 316 then
                      s315
                    else
                      s316
              else
                bif Nat.blt k 320 then
                  bif Nat.blt k 318 then
                    s317
                  else
                    bif Nat.blt k 319 then
                      s318
                    else
                      s319
                else
                  bif Nat.blt k 321 then
                    s320
                  else
                    bif Nat.blt k 322 then
                      s321
                    else
                      s322
            else
              bif Nat.blt k 329 then
                bif Nat.blt k 326 then
                  bif Nat.blt k 324 then
                    s323
                  else
                    bif Nat.blt k 325 then
                      s324
                    else
                      s325
                else
                  bif Nat.blt k 327 then
                    s326
                  else
                    bif Nat.blt k 328 then
                      s327
                    else
                      s328
              else
                bif Nat.blt k 332 then
                  bif Nat.blt k 330 then
                    s329
                  else
                    bif Nat.blt k 331 then
                      s330
                    else
                      s331
                else
                  bif Nat.blt k 333 then
                    s332
                  else
                    bif Nat.blt k 334 then
                      s333
                    else
                      s334
        else
          bif Nat.blt k 359 then
            bif Nat.blt k 347 then
              bif Nat.blt k 341 then
                bif Nat.blt k 338 then
                  bif Nat.blt k 336 then
                    s335
                  else
                    bif Nat.blt k 337 then
                      s336
                    else
                      s337
                else
                  bif Nat.blt k 339 then
                    s338
                  else
                    bif Nat.blt k 340 then
                      s339
                    else
                      s340
              else
                bif Nat.blt k 344 then
                  bif Nat.blt k 342 then
                    s341
                  else
                    bif Nat.blt k 343 then
                      s342
                    else
                      s343
                else
                  bif Nat.blt k 345 then
                    s344
                  else
                    bif Nat.blt k 346 then
                      s345
                    else
                      s346
            else
              bif Nat.blt k 353 then
                bif Nat.blt k 350 then
                  bif Nat.blt k 348 then
                    s347
                  else
                    bif Nat.blt k 349 then
                      s348
                    else
                      s349
                else
                  bif Nat.blt k 351 then
                    s350
                  else
                    bif Nat.blt k 352 then
                      s351
                    else
                      s352
              else
                bif Nat.blt k 356 then
                  bif Nat.blt k 354 then
                    s353
                  else
                    bif Nat.blt k 355 then
                      s354
                    else
                      s355
                else
                  bif Nat.blt k 357 then
                    s356
                  else
                    bif Nat.blt k 358 then
                      s357
                    else
                      s358
          else
            bif Nat.blt k 371 then
              bif Nat.blt k 365 then
                bif Nat.blt k 362 then
                  bif Nat.blt k 360 then
                    s359
                  else
                    bif Nat.blt k 361 then
                      s360
                    else
                      s361
                else
                  bif Nat.blt k 363 then
                    s362
                  else
                    bif Nat.blt k 364 then
                      s363
                    else
                      s364
              else
                bif Nat.blt k 368 then
                  bif Nat.blt k 366 then
                    s365
                  else
                    bif Nat.blt k 367 then
                      s366
                    else
                      s367
                else
                  bif Nat.blt k 369 then
                    s368
                  else
                    bif Nat.blt k 370 then
                      s369
                    else
                      s370
            else
              bif Nat.blt k 377 then
                bif Nat.blt k 374 then
                  bif Nat.blt k 372 then
                    s371
                  else
                    bif Nat.blt k 373 then
                      s372
                    else
                      s373
                else
                  bif Nat.blt k 375 then
                    s374
                  else
                    bif Nat.blt k 376 then
                      s375
                    else
                      s376
              else
                bif Nat.blt k 380 then
                  bif Nat.blt k 378 then
                    s377
                  else
                    bif Nat.blt k 379 then
                      s378
                    else
                      s379
                else
                  bif Nat.blt k 381 then
                    s380
                  else
                    bif Nat.blt k 382 then
                      s381
                    else
                      s382
  else
    bif Nat.blt k 574 then
      bif Nat.blt k 478 then
        bif Nat.blt k 430 then
          bif Nat.blt k 406 then
            bif Nat.blt k 394 then
              bif Nat.blt k 388 then
                bif Nat.blt k 385 then
                  bif Nat.blt k 384 then
                    s383
                  else
                    s384
                else
                  bif Nat.blt k 386 then
                    s385
                  else
                    bif Nat.blt k 387 then
                      s386
                    else
                      s387
              else
                bif Nat.blt k 391 then
                  bif Nat.blt k 389 then
                    s388
                  else
                    bif Nat.blt k 390 then
                      s389
                    else
                      s390
                else
                  bif Nat.blt k 392 then
                    s391
                  else
                    bif Nat.blt k 393 then
                      s392
                    else
                      s393
            else
              bif Nat.blt k 400 then
                bif Nat.blt k 397 then
                  bif Nat.blt k 395 then
                    s394
                  else
                    bif Nat.blt k 396 then
                      s395
                    else
                      s396
                else
                  bif Nat.blt k 398 then
                    s397
                  else
                    bif Nat.blt k 399 then
                      s398
                    else
                      s399
              else
                bif Nat.blt k 403 then
                  bif Nat.blt k 401 then
                    s400
                  else
                    bif Nat.blt k 402 then
                      s401
                    else
                      s402
                else
                  bif Nat.blt k 404 then
                    s403
                  else
                    bif Nat.blt k 405 then
                      s404
                    else
                      s405
          else
            bif Nat.blt k 418 then
              bif Nat.blt k 412 then
                bif Nat.blt k 409 then
                  bif Nat.blt k 407 then
                    s406
                  else
                    bif Nat.blt k 408 then
                      s407
                    else
                      s408
                else
                  bif Nat.blt k 410 then
                    s409
                  else
                    bif Nat.blt k 411 then
                      s410
                    else
                      s411
              else
                bif Nat.blt k 415 then
                  bif Nat.blt k 413 then
                    s412
                  else
                    bif Nat.blt k 414 then
                      s413
                    else
                      s414
                else
                  bif Nat.blt k 416 then
                    s415
                  else
                    bif Nat.blt k 417 then
                      s416
                    else
                      s417
            else
              bif Nat.blt k 424 then
                bif Nat.blt k 421 then
                  bif Nat.blt k 419 then
                    s418
                  else
                    bif Nat.blt k 420 then
                      s419
                    else
                      s420
                else
                  bif Nat.blt k 422 then
                    s421
                  else
                    bif Nat.blt k 423 then
                      s422
                    else
                      s423
              else
                bif Nat.blt k 427 then
                  bif Nat.blt k 425 then
                    s424
                  else
                    bif Nat.blt k 426 then
                      s425
                    else
                      s426
                else
                  bif Nat.blt k 428 then
                    s427
                  else
                    bif Nat.blt k 429 then
                      s428
                    else
                      s429
        else
          bif Nat.blt k 454 then
            bif Nat.blt k 442 then
              bif Nat.blt k 436 then
                bif Nat.blt k 433 then
                  bif Nat.blt k 431 then
                    s430
                  else
                    bif Nat.blt k 432 then
                      s431
                    else
                      s432
                else
                  bif Nat.blt k 434 then
                    s433
                  else
                    bif Nat.blt k 435 then
                      s434
                    else
                      s435
              else
                bif Nat.blt k 439 then
                  bif Nat.blt k 437 then
                    s436
                  else
                    bif Nat.blt k 438 then
                      s437
                    else
                      s438
                else
                  bif Nat.blt k 440 then
                    s439
                  else
                    bif Nat.blt k 441 then
                      s440
                    else
                      s441
            else
              bif Nat.blt k 448 then
                bif Nat.blt k 445 then
                  bif Nat.blt k 443 then
                    s442
                  else
                    bif Nat.blt k 444 then
                      s443
                    else
                      s444
                else
                  bif Nat.blt k 446 then
                    s445
                  else
                    bif Nat.blt k 447 then
                      s446
                    else
                      s447
              else
                bif Nat.blt k 451 then
                  bif Nat.blt k 449 then
                    s448
                  else
                    bif Nat.blt k 450 then
                      s449
                    else
                      s450
                else
                  bif Nat.blt k 452 then
                    s451
                  else
                    bif Nat.blt k 453 then
                      s452
                    else
                      s453
          else
            bif Nat.blt k 466 then
              bif Nat.blt k 460 then
                bif Nat.blt k 457 then
                  bif Nat.blt k 455 then
                    s454
                  else
                    bif Nat.blt k 456 then
                      s455
                    else
                      s456
                else
                  bif Nat.blt k 458 then
                    s457
                  else
                    bif Nat.blt k 459 then
                      s458
                    else
                      s459
              else
                bif Nat.blt k 463 then
                  bif Nat.blt k 461 then
                    s460
                  else
                    bif Nat.blt k 462 then
                      s461
                    else
                      s462
                else
                  bif Nat.blt k 464 then
                    s463
                  else
                    bif Nat.blt k 465 then
                      s464
                    else
                      s465
            else
              bif Nat.blt k 472 then
                bif Nat.blt k 469 then
                  bif Nat.blt k 467 then
                    s466
                  else
                    bif Nat.blt k 468 then
                      s467
                    else
                      s468
                else
                  bif Nat.blt k 470 then
                    s469
                  else
                    bif Nat.blt k 471 then
                      s470
                    else
                      s471
              else
                bif Nat.blt k 475 then
                  bif Nat.blt k 473 then
                    s472
                  else
                    bif Nat.blt k 474 then
                      s473
                    else
                      s474
                else
                  bif Nat.blt k 476 then
                    s475
                  else
                    bif Nat.blt k 477 then
                      s476
                    else
                      s477
      else
        bif Nat.blt k 526 then
          bif Nat.blt k 502 then
            bif Nat.blt k 490 then
              bif Nat.blt k 484 then
                bif Nat.blt k 481 then
                  bif Nat.blt k 479 then
                    s478
                  else
                    bif Nat.blt k 480 then
                      s479
                    else
                      s480
                else
                  bif Nat.blt k 482 then
                    s481
                  else
                    bif Nat.blt k 483 then
                      s482
                    else
                      s483
              else
                bif Nat.blt k 487 then
                  bif Nat.blt k 485 then
                    s484
                  else
                    bif Nat.blt k 486 then
                      s485
                    else
                      s486
                else
                  bif Nat.blt k 488 then
                    s487
                  else
                    bif Nat.blt k 489 then
                      s488
                    else
                      s489
            else
              bif Nat.blt k 496 then
                bif Nat.blt k 493 then
                  bif Nat.blt k 491 then
                    s490
                  else
                    bif Nat.blt k 492 then
                      s491
                    else
                      s492
                else
                  bif Nat.blt k 494 then
                    s493
                  else
                    bif Nat.blt k 495 then
                      s494
                    else
                      s495
              else
                bif Nat.blt k 499 then
                  bif Nat.blt k 497 then
                    s496
                  else
                    bif Nat.blt k 498 then
                      s497
                    else
                      s498
                else
                  bif Nat.blt k 500 then
                    s499
                  else
                    bif Nat.blt k 501 then
                      s500
                    else
                      s501
          else
            bif Nat.blt k 514 then
              bif Nat.blt k 508 then
                bif Nat.blt k 505 then
                  bif Nat.blt k 503 then
                    s502
                  else
                    bif Nat.blt k 504 then
                      s503
                    else
                      s504
                else
                  bif Nat.blt k 506 then
                    s505
                  else
                    bif Nat.blt k 507 then
                      s506
                    else
                      s507
              else
                bif Nat.blt k 511 then
                  bif Nat.blt k 509 then
                    s508
                  else
                    bif Nat.blt k 510 then
                      s509
                    else
                      s510
                else
                  bif Nat.blt k 512 then
                    s511
                  else
                    bif Nat.blt k 513 then
                      s512
                    else
                      s513
            else
              bif Nat.blt k 520 then
                bif Nat.blt k 517 then
                  bif Nat.blt k 515 then
                    s514
                  else
                    bif Nat.blt k 516 then
                      s515
                    else
                      s516
                else
                  bif Nat.blt k 518 then
                    s517
                  else
                    bif Nat.blt k 519 then
                      s518
                    else
                      s519
              else
                bif Nat.blt k 523 then
                  bif Nat.blt k 521 then
                    s520
                  else
                    bif Nat.blt k 522 then
                      s521
                    else
                      s522
                else
                  bif Nat.blt k 524 then
                    s523
                  else
                    bif Nat.blt k 525 then
                      s524
                    else
                      s525
        else
          bif Nat.blt k 550 then
            bif Nat.blt k 538 then
              bif Nat.blt k 532 then
                bif Nat.blt k 529 then
                  bif Nat.blt k 527 then
                    s526
                  else
                    bif Nat.blt k 528 then
                      s527
                    else
                      s528
                else
                  bif Nat.blt k 530 then
                    s529
                  else
                    bif Nat.blt k 531 then
                      s530
                    else
                      s531
              else
                bif Nat.blt k 535 then
                  bif Nat.blt k 533 then
                    s532
                  else
                    bif Nat.blt k 534 then
                      s533
                    else
                      s534
                else
                  bif Nat.blt k 536 then
                    s535
                  else
                    bif Nat.blt k 537 then
                      s536
                    else
                      s537
            else
              bif Nat.blt k 544 then
                bif Nat.blt k 541 then
                  bif Nat.blt k 539 then
                    s538
                  else
                    bif Nat.blt k 540 then
                      s539
                    else
                      s540
                else
                  bif Nat.blt k 542 then
                    s541
                  else
                    bif Nat.blt k 543 then
                      s542
                    else
                      s543
              else
                bif Nat.blt k 547 then
                  bif Nat.blt k 545 then
                    s544
                  else
                    bif Nat.blt k 546 then
                      s545
                    else
                      s546
                else
                  bif Nat.blt k 548 then
                    s547
                  else
                    bif Nat.blt k 549 then
                      s548
                    else
                      s549
          else
            bif Nat.blt k 562 then
              bif Nat.blt k 556 then
                bif Nat.blt k 553 then
                  bif Nat.blt k 551 then
                    s550
                  else
                    bif Nat.blt k 552 then
                      s551
                    else
                      s552
                else
                  bif Nat.blt k 554 then
                    s553
                  else
                    bif Nat.blt k 555 then
                      s554
                    else
                      s555
              else
                bif Nat.blt k 559 then
                  bif Nat.blt k 557 then
                    s556
                  else
                    bif Nat.blt k 558 then
                      s557
                    else
                      s558
                else
                  bif Nat.blt k 560 then
                    s559
                  else
                    bif Nat.blt k 561 then
                      s560
                    else
                      s561
            else
              bif Nat.blt k 568 then
                bif Nat.blt k 565 then
                  bif Nat.blt k 563 then
                    s562
                  else
                    bif Nat.blt k 564 then
                      s563
                    else
                      s564
                else
                  bif Nat.blt k 566 then
                    s565
                  else
                    bif Nat.blt k 567 then
                      s566
                    else
                      s567
              else
                bif Nat.blt k 571 then
                  bif Nat.blt k 569 then
                    s568
                  else
                    bif Nat.blt k 570 then
                      s569
                    else
                      s570
                else
                  bif Nat.blt k 572 then
                    s571
                  else
                    bif Nat.blt k 573 then
                      s572
                    else
                      s573
    else
      bif Nat.blt k 670 then
        bif Nat.blt k 622 then
          bif Nat.blt k 598 then
            bif Nat.blt k 586 then
              bif Nat.blt k 580 then
                bif Nat.blt k 577 then
                  bif Nat.blt k 575 then
                    s574
                  else
                    bif Nat.blt k 576 then
                      s575
                    else
                      s576
                else
                  bif Nat.blt k 578 then
                    s577
                  else
                    bif Nat.blt k 579 then
                      s578
                    else
                      s579
              else
                bif Nat.blt k 583 then
                  bif Nat.blt k 581 then
                    s580
                  else
                    bif Nat.blt k 582 then
                      s581
                    else
                      s582
                else
                  bif Nat.blt k 584 then
                    s583
                  else
                    bif Nat.blt k 585 then
                      s584
                    else
                      s585
            else
              bif Nat.blt k 592 then
                bif Nat.blt k 589 then
                  bif Nat.blt k 587 then
                    s586
                  else
                    bif Nat.blt k 588 then
                      s587
                    else
                      s588
                else
                  bif Nat.blt k 590 then
                    s589
                  else
                    bif Nat.blt k 591 then
                      s590
                    else
                      s591
              else
                bif Nat.blt k 595 then
                  bif Nat.blt k 593 then
                    s592
                  else
                    bif Nat.blt k 594 then
                      s593
                    else
                      s594
                else
                  bif Nat.blt k 596 then
                    s595
                  else
                    bif Nat.blt k 597 then
                      s596
                    else
                      s597
          else
            bif Nat.blt k 610 then
              bif Nat.blt k 604 then
                bif Nat.blt k 601 then
                  bif Nat.blt k 599 then
                    s598
                  else
                    bif Nat.blt k 600 then
                      s599
                    else
                      s600
                else
                  bif Nat.blt k 602 then
                    s601
                  else
                    bif Nat.blt k 603 then
                      s602
                    else
                      s603
              else
                bif Nat.blt k 607 then
                  bif Nat.blt k 605 then
                    s604
                  else
                    bif Nat.blt k 606 then
                      s605
                    else
                      s606
                else
                  bif Nat.blt k 608 then
                    s607
                  else
                    bif Nat.blt k 609 then
                      s608
                    else
                      s609
            else
              bif Nat.blt k 616 then
                bif Nat.blt k 613 then
                  bif Nat.blt k 611 then
                    s610
                  else
                    bif Nat.blt k 612 then
                      s611
                    else
                      s612
                else
                  bif Nat.blt k 614 then
                    s613
                  else
                    bif Nat.blt k 615 then
                      s614
                    else
                      s615
              else
                bif Nat.blt k 619 then
                  bif Nat.blt k 617 then
                    s616
                  else
                    bif Nat.blt k 618 then
                      s617
                    else
                      s618
                else
                  bif Nat.blt k 620 then
                    s619
                  else
                    bif Nat.blt k 621 then
                      s620
                    else
                      s621
        else
          bif Nat.blt k 646 then
            bif Nat.blt k 634 then
              bif Nat.blt k 628 then
                bif Nat.blt k 625 then
                  bif Nat.blt k 623 then
                    s622
                  else
                    bif Nat.blt k 624 then
                      s623
                    else
                      s624
                else
                  bif Nat.blt k 626 then
                    s625
                  else
                    bif Nat.blt k 627 then
                      s626
                    else
                      s627
              else
                bif Nat.blt k 631 then
                  bif Nat.blt k 629 then
                    s628
                  else
                    bif Nat.blt k 630 then
                      s629
                    else
                      s630
                else
                  bif Nat.blt k 632 then
                    s631
                  else
                    bif Nat.blt k 633 then
                      s632
                    else
                      s633
            else
              bif Nat.blt k 640 then
                bif Nat.blt k 637 then
                  bif Nat.blt k 635 then
                    s634
                  else
                    bif Nat.blt k 636 then
                      s635
                    else
                      s636
                else
                  bif Nat.blt k 638 then
                    s637
                  else
                    bif Nat.blt k 639 then
                      s638
                    else
                      s639
              else
                bif Nat.blt k 643 then
                  bif Nat.blt k 641 then
                    s640
                  else
                    bif Nat.blt k 642 then
                      s641
                    else
                      s642
                else
                  bif Nat.blt k 644 then
                    s643
                  else
                    bif Nat.blt k 645 then
                      s644
                    else
                      s645
          else
            bif Nat.blt k 658 then
              bif Nat.blt k 652 then
                bif Nat.blt k 649 then
                  bif Nat.blt k 647 then
                    s646
                  else
                    bif Nat.blt k 648 then
                      s647
                    else
                      s648
                else
                  bif Nat.blt k 650 then
                    s649
                  else
                    bif Nat.blt k 651 then
                      s650
                    else
                      s651
              else
                bif Nat.blt k 655 then
                  bif Nat.blt k 653 then
                    s652
                  else
                    bif Nat.blt k 654 then
                      s653
                    else
                      s654
                else
                  bif Nat.blt k 656 then
                    s655
                  else
                    bif Nat.blt k 657 then
                      s656
                    else
                      s657
            else
              bif Nat.blt k 664 then
                bif Nat.blt k 661 then
                  bif Nat.blt k 659 then
                    s658
                  else
                    bif Nat.blt k 660 then
                      s659
                    else
                      s660
                else
                  bif Nat.blt k 662 then
                    s661
                  else
                    bif Nat.blt k 663 then
                      s662
                    else
                      s663
              else
                bif Nat.blt k 667 then
                  bif Nat.blt k 665 then
                    s664
                  else
                    bif Nat.blt k 666 then
                      s665
                    else
                      s666
                else
                  bif Nat.blt k 668 then
                    s667
                  else
                    bif Nat.blt k 669 then
                      s668
                    else
                      s669
      else
        bif Nat.blt k 718 then
          bif Nat.blt k 694 then
            bif Nat.blt k 682 then
              bif Nat.blt k 676 then
                bif Nat.blt k 673 then
                  bif Nat.blt k 671 then
                    s670
                  else
                    bif Nat.blt k 672 then
                      s671
                    else
                      s672
                else
                  bif Nat.blt k 674 then
                    s673
                  else
                    bif Nat.blt k 675 then
                      s674
                    else
                      s675
              else
                bif Nat.blt k 679 then
                  bif Nat.blt k 677 then
                    s676
                  else
                    bif Nat.blt k 678 then
                      s677
                    else
                      s678
                else
                  bif Nat.blt k 680 then
                    s679
                  else
                    bif Nat.blt k 681 then
                      s680
                    else
                      s681
            else
              bif Nat.blt k 688 then
                bif Nat.blt k 685 then
                  bif Nat.blt k 683 then
                    s682
                  else
                    bif Nat.blt k 684 then
                      s683
                    else
                      s684
                else
                  bif Nat.blt k 686 then
                    s685
                  else
                    bif Nat.blt k 687 then
                      s686
                    else
                      s687
              else
                bif Nat.blt k 691 then
                  bif Nat.blt k 689 then
                    s688
                  else
                    bif Nat.blt k 690 then
                      s689
                    else
                      s690
                else
                  bif Nat.blt k 692 then
                    s691
                  else
                    bif Nat.blt k 693 then
                      s692
                    else
                      s693
          else
            bif Nat.blt k 706 then
              bif Nat.blt k 700 then
                bif Nat.blt k 697 then
                  bif Nat.blt k 695 then
                    s694
                  else
                    bif Nat.blt k 696 then
                      s695
                    else
                      s696
                else
                  bif Nat.blt k 698 then
                    s697
                  else
                    bif Nat.blt k 699 then
                      s698
                    else
                      s699
              else
                bif Nat.blt k 703 then
                  bif Nat.blt k 701 then
                    s700
                  else
                    bif Nat.blt k 702 then
                      s701
                    else
                      s702
                else
                  bif Nat.blt k 704 then
                    s703
                  else
                    bif Nat.blt k 705 then
                      s704
                    else
                      s705
            else
              bif Nat.blt k 712 then
                bif Nat.blt k 709 then
                  bif Nat.blt k 707 then
                    s706
                  else
                    bif Nat.blt k 708 then
                      s707
                    else
                      s708
                else
                  bif Nat.blt k 710 then
                    s709
                  else
                    bif Nat.blt k 711 then
                      s710
                    else
                      s711
              else
                bif Nat.blt k 715 then
                  bif Nat.blt k 713 then
                    s712
                  else
                    bif Nat.blt k 714 then
                      s713
                    else
                      s714
                else
                  bif Nat.blt k 716 then
                    s715
                  else
                    bif Nat.blt k 717 then
                      s716
                    else
                      s717
        else
          bif Nat.blt k 742 then
            bif Nat.blt k 730 then
              bif Nat.blt k 724 then
                bif Nat.blt k 721 then
                  bif Nat.blt k 719 then
                    s718
                  else
                    bif Nat.blt k 720 then
                      s719
                    else
                      s720
                else
                  bif Nat.blt k 722 then
                    s721
                  else
                    bif Nat.blt k 723 then
                      s722
                    else
                      s723
              else
                bif Nat.blt k 727 then
                  bif Nat.blt k 725 then
                    s724
                  else
                    bif Nat.blt k 726 then
                      s725
                    else
                      s726
                else
                  bif Nat.blt k 728 then
                    s727
                  else
                    bif Nat.blt k 729 then
                      s728
                    else
                      s729
            else
              bif Nat.blt k 736 then
                bif Nat.blt k 733 then
                  bif Nat.blt k 731 then
                    s730
                  else
                    bif Nat.blt k 732 then
                      s731
                    else
                      s732
                else
                  bif Nat.blt k 734 then
                    s733
                  else
                    bif Nat.blt k 735 then
                      s734
                    else
                      s735
              else
                bif Nat.blt k 739 then
                  bif Nat.blt k 737 then
                    s736
                  else
                    bif Nat.blt k 738 then
                      s737
                    else
                      s738
                else
                  bif Nat.blt k 740 then
                    s739
                  else
                    bif Nat.blt k 741 then
                      s740
                    else
                      s741
          else
            bif Nat.blt k 754 then
              bif Nat.blt k 748 then
                bif Nat.blt k 745 then
                  bif Nat.blt k 743 then
                    s742
                  else
                    bif Nat.blt k 744 then
                      s743
                    else
                      s744
                else
                  bif Nat.blt k 746 then
                    s745
                  else
                    bif Nat.blt k 747 then
                      s746
                    else
                      s747
              else
                bif Nat.blt k 751 then
                  bif Nat.blt k 749 then
                    s748
                  else
                    bif Nat.blt k 750 then
                      s749
                    else
                      s750
                else
                  bif Nat.blt k 752 then
                    s751
                  else
                    bif Nat.blt k 753 then
                      s752
                    else
                      s753
            else
              bif Nat.blt k 760 then
                bif Nat.blt k 757 then
                  bif Nat.blt k 755 then
                    s754
                  else
                    bif Nat.blt k 756 then
                      s755
                    else
                      s756
                else
                  bif Nat.blt k 758 then
                    s757
                  else
                    bif Nat.blt k 759 then
                      s758
                    else
                      s759
              else
                bif Nat.blt k 763 then
                  bif Nat.blt k 761 then
                    s760
                  else
                    bif Nat.blt k 762 then
                      s761
                    else
                      s762
                else
                  bif Nat.blt k 764 then
                    s763
                  else
                    bif Nat.blt k 765 then
                      s764
                    else
                      []

/-- States whose code tests `lookAheadWSP` on CR: there CR is the symbol 269 when the test is
false and 525 when it is true. -/
def wide (k : Nat) : Bool :=
  k == 12 ||
  k == 26 ||
  (Nat.ble 37 k && Nat.ble k 43) ||
  (Nat.ble 48 k && Nat.ble k 50) ||
  (Nat.ble 69 k && Nat.ble k 71) ||
  k == 75 ||
  (Nat.ble 79 k && Nat.ble k 81) ||
  (Nat.ble 86 k && Nat.ble k 88) ||
  (Nat.ble 104 k && Nat.ble k 114) ||
  (Nat.ble 118 k && Nat.ble k 121) ||
  k == 137 ||
  (Nat.ble 154 k && Nat.ble k 156) ||
  k == 160 ||
  (Nat.ble 164 k && Nat.ble k 166) ||
  (Nat.ble 171 k && Nat.ble k 173) ||
  (Nat.ble 188 k && Nat.ble k 189) ||
  (Nat.ble 194 k && Nat.ble k 195) ||
  k == 199 ||
  k == 206 ||
  (Nat.ble 213 k && Nat.ble k 214) ||
  (Nat.ble 217 k && Nat.ble k 220) ||
  (Nat.ble 232 k && Nat.ble k 234) ||
  k == 238 ||
  (Nat.ble 245 k && Nat.ble k 246) ||
  (Nat.ble 250 k && Nat.ble k 251) ||
  (Nat.ble 257 k && Nat.ble k 258) ||
  (Nat.ble 262 k && Nat.ble k 264) ||
  k == 276 ||
  k == 280 ||
  k == 284 ||
  k == 366 ||
  (Nat.ble 377 k && Nat.ble k 378) ||
  k == 380 ||
  k == 395 ||
  (Nat.ble 436 k && Nat.ble k 437) ||
  (Nat.ble 449 k && Nat.ble k 452) ||
  (Nat.ble 484 k && Nat.ble k 485) ||
  (Nat.ble 507 k && Nat.ble k 508) ||
  (Nat.ble 525 k && Nat.ble k 526) ||
  (Nat.ble 551 k && Nat.ble k 552) ||
  k == 736

end Gosip.Sip.MsgM
