import Verif.Sdp.Sdp
import Verif.Sdp.StringLemmas

/-!
# Independent specification of session descriptions as texts

A text is a list of lines; the fields of the description are read off the lines that start with a
given prefix. `joinCRLF`, `joinByte`, `NoCRLF` are defined in `Verif/Sdp/StringLemmas.lean`.
-/

namespace Gosip.Spec
open Sdp

/-- What follows the prefix `k` on a line that starts with it. -/
def strip (k line : Bytes) : Option Bytes :=
  if k.isPrefixOf line then some (line.drop k.length) else none

/-- A line that counts: one byte, `=`, and a non-empty value. -/
def keyValue : Bytes → Option (UInt8 × Bytes)
  | c0 :: c1 :: x :: v => if c1 = 61 then some (c0, x :: v) else none
  | _ => none

/-- The key-value lines of a text, in order. -/
def pairs (ls : List Bytes) : List (UInt8 × Bytes) := ls.filterMap keyValue

/-- The values of the lines with key `k`, in the order of the text. -/
def values (k : UInt8) (kvs : List (UInt8 × Bytes)) : List Bytes :=
  (kvs.filter (·.1 = k)).map (·.2)

/-- The values of the `k=pre` lines, without `pre`: `fields 97 "rtpmap:"` is what follows `a=rtpmap:`. -/
def fields (k : UInt8) (pre : Bytes) (kvs : List (UInt8 × Bytes)) : List Bytes :=
  (values k kvs).filterMap (strip pre)

/-- A connection value: `IN IP4 addr` or `IN IP6 addr`, not multicast. -/
def ConnValue (v addr : Bytes) : Prop :=
  ∃ net, (net = b!"IP4" ∨ net = b!"IP6") ∧ v = joinByte 32 [b!"IN", net, addr] ∧ 32 ∉ addr ∧ 47 ∉ addr

/-- An origin value: `user id version IN IP4|IP6 addr`, not multicast. -/
def OriginValue (v : Bytes) (o : Origin) : Prop :=
  ∃ net, (net = b!"IP4" ∨ net = b!"IP6") ∧
    v = joinByte 32 [o.user, o.id, o.version, b!"IN", net, o.addr] ∧
    (∀ t ∈ [o.user, o.id, o.version, o.addr], 32 ∉ t) ∧ 47 ∉ o.addr

/-- The first string of the list that starts with `pre` continues with `v`. -/
def FirstWith (pre : Bytes) (l : List Bytes) (v : Bytes) : Prop :=
  ∃ before after, l = before ++ (pre ++ v) :: after ∧ ∀ s ∈ before, ¬ pre <+: s

/-- A decimal numeral: at least one digit, and nothing else. -/
def Numeral (t : Bytes) (n : Nat) : Prop := t ≠ [] ∧ (∀ c ∈ t, 48 ≤ c ∧ c ≤ 57) ∧ decVal t = n

/-- A decimal numeral with an optional sign, within 64 bits. -/
def SignedNumeral (t : Bytes) (x : Int) : Prop :=
  -2 ^ 63 ≤ x ∧ x < 2 ^ 63 ∧
  ∃ n : Nat, (x = n ∧ (Numeral t n ∨ ∃ u, t = b!"+" ++ u ∧ Numeral u n)) ∨ (x = -n ∧ ∃ u, t = b!"-" ++ u ∧ Numeral u n)

/-- `name/rate`, `name/rate/param` or `name/rate/param/…`. -/
def RtpmapValue (v name : Bytes) (rate : Int) (param : Bytes) : Prop :=
  ∃ rateText more, v = joinByte 47 (name :: rateText :: more) ∧ 47 ∉ name ∧ 47 ∉ rateText ∧
    (∀ t ∈ more, 47 ∉ t) ∧ SignedNumeral rateText rate ∧ param = more.headD []

/-- The static payload types (RFC 3551 §6, tables 4 and 5): number, name, clock rate, channels. -/
def staticTypes : List (Nat × Bytes × Nat × Nat) :=
  [(0, b!"PCMU", 8000, 1), (3, b!"GSM", 8000, 1), (4, b!"G723", 8000, 1), (5, b!"DVI4", 8000, 1),
   (6, b!"DVI4", 16000, 1), (7, b!"LPC", 8000, 1), (8, b!"PCMA", 8000, 1), (9, b!"G722", 8000, 1),
   (10, b!"L16", 44100, 2), (11, b!"L16", 44100, 1), (12, b!"QCELP", 8000, 1), (13, b!"CN", 8000, 1),
   (14, b!"MPA", 90000, 1), (15, b!"G728", 8000, 1), (16, b!"DVI4", 11025, 1), (17, b!"DVI4", 22050, 1),
   (18, b!"G729", 8000, 1), (25, b!"CelB", 90000, 1), (26, b!"JPEG", 90000, 1), (28, b!"nv", 90000, 1),
   (31, b!"H261", 90000, 1), (32, b!"MPV", 90000, 1), (33, b!"MP2T", 90000, 1), (34, b!"H263", 90000, 1)]

/-- How a payload type is described by the rtpmap and fmtp values of a text. -/
structure CodecOf (rtpmaps fmtps : List Bytes) (pt : UInt8) (c : Codec) : Prop where
  number : c.pt = pt
  named : c.name ≠ []
  /-- Name, rate and parameter are those of the first rtpmap for this number, or, if there is none
  or it gives no name, those of the static payload type. -/
  described :
    (∃ v, FirstWith (natDec pt.toNat ++ b!" ") rtpmaps v ∧ RtpmapValue v c.name c.rate c.param) ∨
    (((∀ s ∈ rtpmaps, ¬ (natDec pt.toNat ++ b!" ") <+: s) ∨
      ∃ v rate param, FirstWith (natDec pt.toNat ++ b!" ") rtpmaps v ∧ RtpmapValue v [] rate param) ∧
     ∃ rate channels, (pt.toNat, c.name, rate, channels) ∈ staticTypes ∧ c.rate = rate ∧
      c.param = if channels = 1 then [] else natDec channels)
  /-- The format parameters are those of the first fmtp for this number, or none. -/
  format :
    FirstWith (natDec pt.toNat ++ b!" ") fmtps c.fmtp ∨
    ((∀ s ∈ fmtps, ¬ (natDec pt.toNat ++ b!" ") <+: s) ∧ c.fmtp = [])

/-- A media value `port[/n] proto pt pt ...` and the media it describes. -/
def MediaValue (rtpmaps fmtps : List Bytes) (v : Bytes) (m : Media) : Prop :=
  ∃ portText count ptTexts,
    v = joinByte 32 ((portText ++ count) :: m.proto :: ptTexts) ∧ 32 ∉ m.proto ∧
    (count = [] ∨ ∃ n, count = b!"/" ++ n ∧ 32 ∉ n) ∧
    Numeral portText m.port.toNat ∧
    ptTexts ≠ [] ∧ ptTexts.length = m.codecs.length ∧
    ∀ (i : Nat) (pt : Bytes) (c : Codec), ptTexts[i]? = some pt → m.codecs[i]? = some c →
      Numeral pt c.pt.toNat ∧ CodecOf rtpmaps fmtps c.pt c

/-- The last of the lines `m=audio …` (or `m=video …`) describes the media; no such line, or
nothing after the type on the last one: no media. -/
def MediaOf (kvs : List (UInt8 × Bytes)) (type : Bytes) : Option Media → Prop
  | some m => ∃ v, (fields 109 type kvs).getLast? = some v ∧ v ≠ [] ∧
      MediaValue (fields 97 b!"rtpmap:" kvs) (fields 97 b!"fmtp:" kvs) v m
  | none => (fields 109 type kvs).getLast?.getD [] = []

/-- Attributes that are not kept in `Attrs`. -/
def reserved (v : Bytes) : Bool :=
  b!"rtpmap:".isPrefixOf v || b!"fmtp:".isPrefixOf v || b!"ptime:".isPrefixOf v || b!":".isPrefixOf v ||
  v = b!"sendrecv" || v = b!"sendonly" || v = b!"recvonly"

/-- The attribute text `name:value` (or `name`, with an empty value), cut at the first colon. -/
def attrOf (v : Bytes) : Bytes × Bytes := (v.takeWhile (· ≠ 58), (v.dropWhile (· ≠ 58)).drop 1)

/-- Positive packet times (`atoi` is `strconv.Atoi`: see `atoi_iff` for what it accepts). -/
def ptimes (kvs : List (UInt8 × Bytes)) : List Int :=
  ((fields 97 b!"ptime:" kvs).filterMap atoi).filter (0 < ·)

/-- The keys with a meaning: m s t c o a, and `=`. -/
def knownKeys : Bytes := b!"mstcoa="

/-- The description read from the lines of a text. -/
structure Described (ls : List Bytes) (d : SDP) : Prop where
  /-- The first `c=` line. -/
  conn : ∃ v, (values 99 (pairs ls)).head? = some v ∧ ConnValue v d.addr
  /-- The last `o=` line. -/
  origin : ∃ v, (values 111 (pairs ls)).getLast? = some v ∧ OriginValue v d.origin
  audio : MediaOf (pairs ls) b!"audio " d.audio
  video : MediaOf (pairs ls) b!"video " d.video
  session : d.session = (values 115 (pairs ls)).getLast?.getD b!"pokémon"
  time : d.time = (values 116 (pairs ls)).getLast?.getD b!"0 0"
  ptime : d.ptime = (ptimes (pairs ls)).getLast?.getD 0
  sendOnly : d.sendOnly = true ↔ b!"a=sendonly" ∈ ls
  recvOnly : d.recvOnly = true ↔ b!"a=recvonly" ∈ ls
  attrs : d.attrs = ((values 97 (pairs ls)).filter (! reserved ·)).map attrOf
  other : d.other = ((pairs ls).filter (fun p => !knownKeys.contains p.1)).map fun p => ([p.1], p.2)

/-- Codecs of both media. -/
def allCodecs (d : SDP) : List Codec :=
  (d.audio.map Media.codecs).getD [] ++ (d.video.map Media.codecs).getD []

/-- Text of an attribute, without `a=`. -/
def attrValue (a : Bytes × Bytes) : Bytes := if a.2 = [] then a.1 else a.1 ++ b!":" ++ a.2

/-- A codec whose description fits on its lines. -/
structure CodecOK (c : Codec) : Prop where
  name : c.name ≠ [] ∧ 47 ∉ c.name ∧ NoCRLF c.name
  rate : -2 ^ 63 ≤ c.rate ∧ c.rate < 2 ^ 63
  param : 47 ∉ c.param ∧ NoCRLF c.param
  fmtp : NoCRLF c.fmtp

/-- A media description that fits on its line and has a codec. -/
structure MediaOK (m : Media) : Prop where
  proto : m.proto ≠ [] ∧ 32 ∉ m.proto ∧ NoCRLF m.proto
  codecs : m.codecs ≠ [] ∧ ∀ c ∈ m.codecs, CodecOK c

/-- Descriptions that can be written as a text: every field fits on its line (no CRLF, no separator of
the line), nothing that the text cannot leave out is missing, and a payload type has one meaning. -/
structure WellFormed (d : SDP) : Prop where
  session : d.session ≠ [] ∧ NoCRLF d.session
  time : d.time ≠ [] ∧ NoCRLF d.time
  addr : d.addr ≠ [] ∧ 32 ∉ d.addr ∧ 47 ∉ d.addr ∧ NoCRLF d.addr
  origin : ∀ t ∈ [d.origin.user, d.origin.id, d.origin.version, d.origin.addr],
    t ≠ [] ∧ 32 ∉ t ∧ NoCRLF t
  originAddr : 47 ∉ d.origin.addr
  media : d.audio ≠ none ∨ d.video ≠ none
  audio : ∀ m, d.audio = some m → MediaOK m
  video : ∀ m, d.video = some m → MediaOK m
  consistent : ∀ c ∈ allCodecs d, ∀ c' ∈ allCodecs d, c.pt = c'.pt → c = c'
  ptime : 0 ≤ d.ptime ∧ d.ptime < 2 ^ 63
  direction : ¬ (d.sendOnly = true ∧ d.recvOnly = true)
  attrs : ∀ a ∈ d.attrs, a.1 ≠ [] ∧ 58 ∉ a.1 ∧ NoCRLF a.1 ∧ NoCRLF a.2 ∧ reserved (attrValue a) = false
  other : ∀ p ∈ d.other, ∃ k, p.1 = [k] ∧ k ∉ knownKeys ∧ p.2 ≠ [] ∧ NoCRLF p.2

/-- What a text can leave blank but `String()` fills in, or states twice. -/
structure NoBlanks (d : SDP) : Prop where
  addr : d.addr ≠ []
  origin : ∀ t ∈ [d.origin.user, d.origin.id, d.origin.version, d.origin.addr], t ≠ []
  proto : ∀ m, d.audio = some m ∨ d.video = some m → m.proto ≠ []
  direction : ¬ (d.sendOnly = true ∧ d.recvOnly = true)
  /-- Not `a=sendrecv:`, which is kept as an attribute named sendrecv. -/
  attrs : ∀ a ∈ d.attrs, a.2 = [] → reserved a.1 = false

end Gosip.Spec
