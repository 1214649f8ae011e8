import Verif.Sip.Uri
import Verif.Sip.UriTable

/-!
# `ParseURI` (`sip/uri_parse.rl`, `sip/uri_parse.go`)

The generated machine is modelled state by state: the transition table is in `Verif.Sip.UriTable`,
the actions and the driver loop are here. The scratch buffer `buf` is explicit and writing or
slicing outside it is a panic.
-/

namespace Gosip.Sip
namespace Uri

/-- Local variables of `ParseURI` (`sip/uri_parse.go:45-53`), without `cs`, `p`, `pe`. -/
structure UCtx where
  uri : URI
  buf : Bytes
  amt : Nat
  b1 : Bytes
  b2 : Bytes
  hex : UInt8
  deriving DecidableEq, Repr

/-- `buf[amt] = c; amt++`; `none` is the index-out-of-range panic. -/
def UCtx.push (x : UCtx) (c : UInt8) : Option UCtx :=
  if x.amt < x.buf.length then some { x with buf := x.buf.set x.amt c, amt := x.amt + 1 } else none

/-- `string(buf[0:amt])`; `none` is the slice-bounds-out-of-range panic. -/
def UCtx.slice (x : UCtx) : Option Bytes :=
  if x.amt ≤ x.buf.length then some (x.buf.take x.amt) else none

/-- Actions of `sip/uri_parse.rl:43-115`, as inlined in `sip/uri_parse.go`. `c` is `data[p]`, absent
at the end of the input, where using it is an index-out-of-range panic. -/
def exec (a : UAct) (c : Option UInt8) (x : UCtx) : Option UCtx :=
  match a with
  | .start => some { x with amt := 0 }
  | .append => do let c ← c; x.push c
  | .hexHi => do let c ← c; some { x with hex := unhex c * 16 }
  | .hexLo => do
    let c ← c
    ({ x with hex := x.hex + unhex c } : UCtx).push (x.hex + unhex c)
  | .scheme => do let s ← x.slice; some { x with uri.scheme := s }
  | .user => do let s ← x.slice; some { x with uri.user := s }
  | .pass => do let s ← x.slice; some { x with uri.pass := s }
  | .host => do let s ← x.slice; some { x with uri.host := s }
  | .port => do let c ← c; some { x with uri.port := x.uri.port * 10 + (c - 48).toUInt16 }
  | .b1 => do let s ← x.slice; some { x with b1 := s, amt := 0 }
  | .b2 => do let s ← x.slice; some { x with b2 := s, amt := 0 }
  | .lower => do
    let c ← c
    if 65 ≤ c && c ≤ 90 then x.push (c + 0x20) else x.push c
  | .param => some { x with uri.param := (x.b1, x.b2) :: x.uri.param }
  | .header => some { x with uri.header := (x.b1, x.b2) :: x.uri.header }

/-- The actions of one transition, in order. -/
def execs : List UAct → Option UInt8 → UCtx → Option UCtx
  | [], _, x => some x
  | a :: l, c, x => do let y ← exec a c x; execs l c y

/-- The transition of the machine on a symbol: the `switch data[p]` of a state. -/
def lookup : List Row → Nat → Option Row
  | [], _ => none
  | r :: l, c => bif Nat.ble r.lo c && Nat.ble c r.hi then some r else lookup l c

/-- Errors returned by `ParseURI` (`sip/uri_parse.go:2681-2687`). -/
inductive UErr where
  | incomplete (data : Bytes)
  | errorAt (p : Nat) (data : Bytes)
  deriving DecidableEq, Repr

/-- The exec loop of `sip/uri_parse.go:73-2677` and the tests after it; `rest` is `data[p:]`.
On an unexpected symbol the machine jumps to `_out` with `p` unchanged and `cs = 0`; at the end of
the input it runs the end-of-file actions of the state. `uri_first_final` is 45. -/
def run (data : Bytes) : Nat → UCtx → Nat → Bytes → Res UErr URI
  | k, x, _, [] =>
    match execs (eofActs k) none x with
    | none => .panic
    | some y => if k < 45 then .err (.incomplete data) else .ok y.uri
  | k, x, p, c :: rest =>
    match lookup (rows k) c.toNat with
    | none => .err (.errorAt p data)
    | some r =>
      match execs r.acts (some c) x with
      | none => .panic
      | some y => run data r.tgt y (p + 1) rest

/-- Initial values of the locals (`sip/uri_parse.go:45-53`). -/
def initCtx (data : Bytes) : UCtx :=
  { uri := {}, buf := List.replicate data.length 0, amt := 0, b1 := [], b2 := [], hex := 0 }

/-- `uri_en_uriSansUser` or `uri_en_uriWithUser` (`sip/uri_parse.go:66-70`). -/
def entry (data : Bytes) : Nat := if data.contains 64 then 1 else 27

end Uri

/-- `ParseURI` (`sip/uri_parse.go:41-2689`) on a non-nil slice. -/
def parseURI (data : Bytes) : Res Uri.UErr URI :=
  Uri.run data (Uri.entry data) (Uri.initCtx data) 0 data

/-- `ParseURI` on any slice: a nil slice gives a nil URI and no error. -/
def parseURINil : Option Bytes → Res Uri.UErr (Option URI)
  | none => .ok none
  | some d => parseURI d >>= fun u => .ok (some u)

end Gosip.Sip
