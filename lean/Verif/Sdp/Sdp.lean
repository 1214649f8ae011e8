import Verif.Sdp.Strings
import Verif.Sip.Uri

/-!
# Session descriptions (`sdp/`)

Go arrays preallocated by `Parse` are lists with an explicit capacity; exceeding it is a panic.
`log.Println` is not modelled (it returns).
-/

namespace Gosip.Sdp
open Sip (isIPv6)

/-- `Codec` (`sdp/codec.go:25-31`). -/
structure Codec where
  pt : UInt8 := 0
  name : Bytes := []
  rate : Int := 0
  param : Bytes := []
  fmtp : Bytes := []
  deriving DecidableEq, Repr

/-- `Media` (`sdp/media.go:24-28`). -/
structure Media where
  proto : Bytes := []
  port : UInt16 := 0
  codecs : List Codec := []
  deriving DecidableEq, Repr

/-- `Origin` (`sdp/origin.go:25-30`). -/
structure Origin where
  user : Bytes := []
  id : Bytes := []
  version : Bytes := []
  addr : Bytes := []
  deriving DecidableEq, Repr

/-- `SDP` (`sdp/sdp.go:86-98`). -/
structure SDP where
  origin : Origin := {}
  addr : Bytes := []
  audio : Option Media := none
  video : Option Media := none
  session : Bytes := []
  time : Bytes := []
  ptime : Int := 0
  sendOnly : Bool := false
  recvOnly : Bool := false
  attrs : List (Bytes × Bytes) := []
  other : List (Bytes × Bytes) := []
  deriving DecidableEq, Repr

/-- `StandardCodecs` (`sdp/codecs.go:40-65`). -/
def standardCodecs : List (UInt8 × Codec) :=
  [(0, ⟨0, b!"PCMU", 8000, [], []⟩), (3, ⟨3, b!"GSM", 8000, [], []⟩), (4, ⟨4, b!"G723", 8000, [], []⟩),
   (5, ⟨5, b!"DVI4", 8000, [], []⟩), (6, ⟨6, b!"DVI4", 16000, [], []⟩), (7, ⟨7, b!"LPC", 8000, [], []⟩),
   (8, ⟨8, b!"PCMA", 8000, [], []⟩), (9, ⟨9, b!"G722", 8000, [], []⟩),
   (10, ⟨10, b!"L16", 44100, b!"2", []⟩), (11, ⟨11, b!"L16", 44100, [], []⟩),
   (12, ⟨12, b!"QCELP", 8000, [], []⟩), (13, ⟨13, b!"CN", 8000, [], []⟩),
   (14, ⟨14, b!"MPA", 90000, [], []⟩), (15, ⟨15, b!"G728", 8000, [], []⟩),
   (16, ⟨16, b!"DVI4", 11025, [], []⟩), (17, ⟨17, b!"DVI4", 22050, [], []⟩),
   (18, ⟨18, b!"G729", 8000, [], []⟩), (25, ⟨25, b!"CelB", 90000, [], []⟩),
   (26, ⟨26, b!"JPEG", 90000, [], []⟩), (28, ⟨28, b!"nv", 90000, [], []⟩),
   (31, ⟨31, b!"H261", 90000, [], []⟩), (32, ⟨32, b!"MPV", 90000, [], []⟩),
   (33, ⟨33, b!"MP2T", 90000, [], []⟩), (34, ⟨34, b!"H263", 90000, [], []⟩)]

/-- Errors of `Parse`, one constructor per message. -/
inductive SErr where
  | noVersion | fewLines | connLine | connNet | connMulticast | originLine | originNet
  | originMulticast | missingMandatory | mLine | mPort | mPt | dynamicNoRtpmap | unknownPt (pt : UInt8)
  | rtpmapRate | rtpmap | noMedia
  deriving DecidableEq, Repr

/-- `parseConnLine` (`sdp/sdp.go:475-488`). -/
def parseConnLine (line : Bytes) : Res SErr Bytes := do
  let l ← sliceFrom line 2
  let toks := splitByte 32 l
  if toks.length ≠ 3 then .err .connLine else do
  let t0 ← idx toks 0
  let t1 ← idx toks 1
  if t0 ≠ b!"IN" ∨ (t1 ≠ b!"IP4" ∧ t1 ≠ b!"IP6") then .err .connNet else do
  let addr ← idx toks 2
  if (indexByte 47 addr).isSome then .err .connMulticast else .ok addr

/-- `parseOriginLine` (`sdp/sdp.go:491-507`). -/
def parseOriginLine (line : Bytes) : Res SErr Origin := do
  let l ← sliceFrom line 2
  let toks := splitByte 32 l
  if toks.length ≠ 6 then .err .originLine else do
  let t3 ← idx toks 3
  let t4 ← idx toks 4
  if t3 ≠ b!"IN" ∨ (t4 ≠ b!"IP4" ∧ t4 ≠ b!"IP6") then .err .originNet else do
  let t0 ← idx toks 0
  let t1 ← idx toks 1
  let t2 ← idx toks 2
  let t5 ← idx toks 5
  if (indexByte 47 t5).isSome then .err .originMulticast else .ok ⟨t0, t1, t2, t5⟩

/-- The loop over the payload types in `parseMediaInfo` (`sdp/sdp.go:462-469`). -/
def parsePts : List Bytes → Res SErr (List UInt8)
  | [] => .ok []
  | t :: ts =>
    match parseUint 8 t with
    | none => .err .mPt
    | some v => parsePts ts >>= fun l => .ok (UInt8.ofNat v :: l)

/-- The port without an optional `/n` (`sdp/sdp.go:446-449`). -/
def portPart (t : Bytes) : Res SErr Bytes :=
  match indexByte 47 t with
  | some n => if n > 0 then sliceTo t n else .ok t
  | none => .ok t

/-- `parseMediaInfo` (`sdp/sdp.go:438-472`). -/
def parseMediaInfo (s : Bytes) : Res SErr (UInt16 × Bytes × List UInt8) := do
  let toks := splitByte 32 s
  if toks.length < 3 then .err .mLine else do
  let t0 ← idx toks 0
  let portS ← portPart t0
  match parseUint 16 portS with
  | none => .err .mPort
  | some port => do
    let proto ← idx toks 1
    let pts ← parsePts (toks.drop 2)
    .ok (UInt16.ofNat port, proto, pts)

/-- `parseRtpmapInfo` (`sdp/sdp.go:420-435`). -/
def parseRtpmapInfo (codec : Codec) (s : Bytes) : Res SErr Codec := do
  let toks := splitByte 47 s
  if toks.length < 2 then .err .rtpmap else do
  let name ← idx toks 0
  let t1 ← idx toks 1
  match atoi t1 with
  | none => .err .rtpmapRate
  | some rate =>
    if toks.length ≥ 3 then do
      let t2 ← idx toks 2
      .ok { codec with name := name, rate := rate, param := t2 }
    else .ok { codec with name := name, rate := rate }

/-- First string with the prefix, without the prefix: the two inner loops of `populateCodecs`. -/
def firstWith (pre : Bytes) : List Bytes → Res SErr (Option Bytes)
  | [] => .ok none
  | s :: l =>
    if hasPrefix pre s then sliceFrom s pre.length >>= fun t => .ok (some t) else firstWith pre l

/-- `isDynamicPT` (`sdp/sdp.go:414-416`). -/
def isDynamicPT (pt : UInt8) : Bool := pt ≥ 96

/-- The codec as described by the rtpmap that was found (`sdp/sdp.go:379-390`). -/
def rtpmapCodec (pt : UInt8) : Option Bytes → Res SErr Codec
  | some s => parseRtpmapInfo { pt := pt } s
  | none => .ok { pt := pt }

/-- The IANA table for codecs without a name (`sdp/sdp.go:391-402`). -/
def ianaCodec (pt : UInt8) (codec : Codec) : Res SErr Codec :=
  if codec.name = [] then
    if isDynamicPT pt then .err .dynamicNoRtpmap
    else match standardCodecs.lookup pt with
      | some v => .ok v
      | none => .err (.unknownPt pt)
  else .ok codec

/-- Body of the loop of `populateCodecs` (`sdp/sdp.go:378-409`) for one payload type. -/
def populateCodec (rtpmaps fmtps : List Bytes) (pt : UInt8) : Res SErr Codec := do
  let pre := itoa pt.toNat ++ b!" "
  let m ← firstWith pre rtpmaps
  let codec ← rtpmapCodec pt m
  let codec ← ianaCodec pt codec
  let f ← firstWith pre fmtps
  match f with
  | some s => .ok { codec with fmtp := s }
  | none => .ok codec

/-- `populateCodecs` (`sdp/sdp.go:376-411`): the new value of `media.Codecs`. -/
def populateCodecs (rtpmaps fmtps : List Bytes) : List UInt8 → Res SErr (List Codec)
  | [] => .ok []
  | pt :: pts => do
    let c ← populateCodec rtpmaps fmtps pt
    let l ← populateCodecs rtpmaps fmtps pts
    .ok (c :: l)

/-- Locals of the loop of `Parse` (`sdp/sdp.go:136-144`); `rtpmaps` and `fmtps` hold the elements
below their counters, `cap` is `len(lines)`. -/
structure PState where
  sdp : SDP
  audioinfo : Bytes := []
  videoinfo : Bytes := []
  rtpmaps : List Bytes := []
  fmtps : List Bytes := []
  okOrigin : Bool := false
  okConn : Bool := false

/-- `rtpmaps[rtpmapcnt] = v; rtpmapcnt++` and `sdp.Attrs = sdp.Attrs[0:l+1]; sdp.Attrs[l] = v` on an
array of `cap` elements. -/
def store {α : Type} (cap : Nat) (l : List α) (v : α) : Res SErr (List α) :=
  if l.length < cap then .ok (l ++ [v]) else .panic

/-- The `a=` case (`sdp/sdp.go:181-216`). -/
def attrLine (cap : Nat) (st : PState) (line : Bytes) : Res SErr PState := do
  let line ← sliceFrom line 2
  if hasPrefix b!"rtpmap:" line then do
    let v ← sliceFrom line 7
    let l ← store cap st.rtpmaps v
    .ok { st with rtpmaps := l }
  else if hasPrefix b!"fmtp:" line then do
    let v ← sliceFrom line 5
    let l ← store cap st.fmtps v
    .ok { st with fmtps := l }
  else if hasPrefix b!"ptime:" line then do
    let v ← sliceFrom line 6
    match atoi v with
    | some p => if p > 0 then .ok { st with sdp.ptime := p } else .ok st
    | none => .ok st
  else if line = b!"sendrecv" then .ok st
  else if line = b!"sendonly" then .ok { st with sdp.sendOnly := true }
  else if line = b!"recvonly" then .ok { st with sdp.recvOnly := true }
  else match indexByte 58 line with
    | some 0 => .ok st
    | some n => do
      let a ← sliceTo line n
      let v ← sliceFrom line (n + 1)
      let l ← store cap st.sdp.attrs (a, v)
      .ok { st with sdp.attrs := l }
    | none => do
      let l ← store cap st.sdp.attrs (line, [])
      .ok { st with sdp.attrs := l }

/-- The `m=` case (`sdp/sdp.go:152-160`). -/
def mediaLine (st : PState) (line : Bytes) : Res SErr PState := do
  let line ← sliceFrom line 2
  if hasPrefix b!"audio " line then do
    let v ← sliceFrom line 6
    .ok { st with audioinfo := v }
  else if hasPrefix b!"video " line then do
    let v ← sliceFrom line 6
    .ok { st with videoinfo := v }
  else .ok st

/-- The default case (`sdp/sdp.go:217-230`). -/
def otherLine (st : PState) (line : Bytes) : Res SErr PState :=
  match indexByte 61 line with
  | some 0 => .ok st
  | some n => do
    let a ← sliceTo line n
    let v ← sliceFrom line (n + 1)
    .ok { st with sdp.other := st.sdp.other ++ [(a, v)] }
  | none => .ok { st with sdp.other := st.sdp.other ++ [(line, [])] }

/-- One iteration of the loop over the lines (`sdp/sdp.go:145-231`). -/
def parseLine (cap : Nat) (st : PState) (line : Bytes) : Res SErr PState :=
  if line = [] then .ok st
  else if line.length < 3 then .ok st
  else do
    let c1 ← idx line 1
    if c1 ≠ 61 then .ok st else do
    let c0 ← idx line 0
    if c0 = 109 then mediaLine st line
    else if c0 = 115 then do
      let v ← sliceFrom line 2
      .ok { st with sdp.session := v }
    else if c0 = 116 then do
      let v ← sliceFrom line 2
      .ok { st with sdp.time := v }
    else if c0 = 99 then
      if st.okConn then .ok st
      else do
        let a ← parseConnLine line
        .ok { st with sdp.addr := a, okConn := true }
    else if c0 = 111 then do
      let o ← parseOriginLine line
      .ok { st with sdp.origin := o, okOrigin := true }
    else if c0 = 97 then attrLine cap st line
    else otherLine st line

/-- The loop over the lines. -/
def parseLines (cap : Nat) : PState → List Bytes → Res SErr PState
  | st, [] => .ok st
  | st, l :: ls => parseLine cap st l >>= fun st => parseLines cap st ls

/-- Media part of `Parse` (`sdp/sdp.go:242-268`). -/
def parseMedia (rtpmaps fmtps : List Bytes) (info : Bytes) : Res SErr (Option Media) :=
  if info = [] then .ok none
  else do
    let (port, proto, pts) ← parseMediaInfo info
    let cs ← populateCodecs rtpmaps fmtps pts
    .ok (some ⟨proto, port, cs⟩)

/-- `Parse` (`sdp/sdp.go:117-275`). -/
def parse (s : Bytes) : Res SErr SDP :=
  if !hasPrefix b!"v=0\r\n" s then .err .noVersion
  else do
    let s ← sliceFrom s 5
    let lines := splitCRLF s
    if lines.length < 2 then .err .fewLines else do
    let st ← parseLines lines.length { sdp := { session := b!"pokémon", time := b!"0 0" } } lines
    if !st.okConn || !st.okOrigin then .err .missingMandatory else do
    let audio ← parseMedia st.rtpmaps st.fmtps st.audioinfo
    let video ← parseMedia st.rtpmaps st.fmtps st.videoinfo
    if audio.isNone && video.isNone then .err .noMedia
    else .ok { st.sdp with audio := audio, video := video }

/-! ### Serialisation -/

/-- `Codec.Append` (`sdp/codec.go:33-52`). -/
def Codec.text (c : Codec) : Bytes :=
  b!"a=rtpmap:" ++ itoa c.pt.toNat ++ b!" " ++ c.name ++ b!"/" ++ itoa c.rate ++
    (if c.param ≠ [] then b!"/" ++ c.param else []) ++ b!"\r\n" ++
    (if c.fmtp ≠ [] then b!"a=fmtp:" ++ itoa c.pt.toNat ++ b!" " ++ c.fmtp ++ b!"\r\n" else [])

/-- `Media.Append` (`sdp/media.go:30-49`). -/
def Media.text (type : Bytes) (m : Media) : Bytes :=
  b!"m=" ++ type ++ b!" " ++ natDec m.port.toNat ++ b!" " ++
    (if m.proto = [] then b!"RTP/AVP" else m.proto) ++
    m.codecs.flatMap (fun c => b!" " ++ itoa c.pt.toNat) ++ b!"\r\n" ++
    m.codecs.flatMap Codec.text

/-- `Origin.Append` (`sdp/origin.go:32-63`); `gen` is what `util.GenerateOriginID` returns. -/
def Origin.text (gen : Bytes) (o : Origin) : Bytes :=
  let id := if o.id = [] then gen else o.id
  b!"o=" ++ (if o.user = [] then b!"-" else o.user) ++ b!" " ++ id ++ b!" " ++
    (if o.version = [] then id else o.version) ++
    (if isIPv6 o.addr then b!" IN IP6 " else b!" IN IP4 ") ++
    (if o.addr = [] then b!"69.28.157.198" else o.addr) ++ b!"\r\n"

/-- One attribute of `SDP.Append` (`sdp/sdp.go:334-346`). -/
def attrText (a : Bytes × Bytes) : Bytes :=
  if a.2 = [] then b!"a=" ++ a.1 ++ b!"\r\n" else b!"a=" ++ a.1 ++ b!":" ++ a.2 ++ b!"\r\n"

/-- `SDP.Append` / `String` / `Data` (`sdp/sdp.go:281-369`). -/
def SDP.text (gen : Bytes) (d : SDP) : Bytes :=
  b!"v=0\r\n" ++ d.origin.text gen ++ b!"s=" ++
    (if d.session = [] then b!"my people call themselves dark angels" else d.session) ++ b!"\r\n" ++
    (if isIPv6 d.addr then b!"c=IN IP6 " else b!"c=IN IP4 ") ++
    (if d.addr = [] then b!"69.28.157.198" else d.addr) ++ b!"\r\n" ++ b!"t=" ++
    (if d.time = [] then b!"0 0" else d.time) ++ b!"\r\n" ++
    (match d.audio with | some m => m.text b!"audio" | none => []) ++
    (match d.video with | some m => m.text b!"video" | none => []) ++
    d.attrs.flatMap attrText ++
    (if d.ptime > 0 then b!"a=ptime:" ++ itoa d.ptime ++ b!"\r\n" else []) ++
    (if d.sendOnly then b!"a=sendonly\r\n" else if d.recvOnly then b!"a=recvonly\r\n"
     else b!"a=sendrecv\r\n") ++
    d.other.flatMap (fun v => v.1 ++ b!"=" ++ v.2 ++ b!"\r\n")

end Gosip.Sdp
